import Verif.Model.AddrText

/-!
# Model of the functions of `libaddr/addr.cpp` which ask the system for names

`getnameinfo()`, `getservbyname_r()` and `advgetopt::validator_integer::convert_string()` are parameters (`NameSys`).
-/

namespace Verif

/-! The flags of `getnameinfo()` (`<netdb.h>`). -/

def NI_NUMERICHOST : BitVec 32 := 1
def NI_NUMERICSERV : BitVec 32 := 2
def NI_NOFQDN : BitVec 32 := 4
def NI_NAMEREQD : BitVec 32 := 8
def NI_DGRAM : BitVec 32 := 16

/-- The functions of the system. -/
structure NameSys where
  /-- `getnameinfo(sa, sizeof(sockaddr_in6), host, NI_MAXHOST, nullptr, 0, flags)`; `none` when it does not return 0. -/
  host : SockaddrIn6 → (flags : BitVec 32) → Option Str
  /-- `getnameinfo(sa, sizeof(sockaddr_in6), nullptr, 0, service, NI_MAXSERV, flags)`. -/
  service : SockaddrIn6 → (flags : BitVec 32) → Option Str
  /-- `getservbyname_r(name, protocol)`: `s_port` through `ntohs()`. -/
  getservbyname : (name proto : Str) → Option (BitVec 16)
  /-- `advgetopt::validator_integer::convert_string()`. -/
  convert : Str → Option Int

namespace Addr

/-- The flags of both functions, addr.cpp:2251-2255 and 2301-2305. -/
def nameFlags (a : Addr) : BitVec 32 :=
  if a.protocol = IPPROTO_UDP then NI_NAMEREQD ||| NI_DGRAM else NI_NAMEREQD

/-- `addr::get_name()`, addr.cpp:2247-2272. -/
def getName (sys : NameSys) (a : Addr) : Str := (sys.host a.address a.nameFlags).getD []

/-- `addr::get_service()`, addr.cpp:2292-2319. -/
def getService (sys : NameSys) (a : Addr) : Str :=
  if a.getPort = 0 then [] else (sys.service a.address a.nameFlags).getD []

/-- `addr::set_port(char const *)`, addr.cpp:429-469, with the name of the protocol which it passes to `getservbyname_r()`. -/
def setPortText (sys : NameSys) (db : NetDb) (port : Str) : SM Addr Bool := fun a =>
  match sys.convert port with
  | some p => setPortStr (some p) none a
  | none =>
    match a.getProtocolName db with
    | .ok proto => setPortStr none (sys.getservbyname port (cstr proto)) a
    | .throw e => (a, .throw e)
    | .ub w => (a, .ub w)

end Addr

end Verif
