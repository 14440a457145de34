import Verif.Model.Range
import Verif.Model.InetText

/-!
# Model of the functions which print addresses and ranges: `libaddr/addr.cpp`, `libaddr/addr_range.cpp`

The answers of `/etc/protocols` and `/etc/services` are parameters (`NetDb`).
-/

namespace Verif

/-! The `string_ip_t` flags, addr.h:111-146. -/

def STRING_IP_ADDRESS : BitVec 32 := 0x0001
def STRING_IP_BRACKET_ADDRESS : BitVec 32 := 0x0002
def STRING_IP_PORT : BitVec 32 := 0x0004
def STRING_IP_PORT_NAME : BitVec 32 := 0x0008
def STRING_IP_MASK : BitVec 32 := 0x0010
def STRING_IP_BRACKET_MASK : BitVec 32 := 0x0020
def STRING_IP_MASK_AS_ADDRESS : BitVec 32 := 0x0040
def STRING_IP_MASK_IF_NEEDED : BitVec 32 := 0x0080
def STRING_IP_DEFAULT_AS_ASTERISK : BitVec 32 := 0x0100
def STRING_IP_DEFAULT_AS_IPV4 : BitVec 32 := 0x0200
def STRING_IP_ADDRESS_PORT : BitVec 32 := STRING_IP_BRACKET_ADDRESS ||| STRING_IP_PORT
def STRING_IP_NO_BRACKETS : BitVec 32 := STRING_IP_ADDRESS ||| STRING_IP_PORT ||| STRING_IP_MASK
def STRING_IP_ALL : BitVec 32 := STRING_IP_BRACKET_ADDRESS ||| STRING_IP_PORT ||| STRING_IP_BRACKET_MASK

/-- What a `get...by..._r()` function answers once its buffer is large enough: an entry, "not found" (it returns 0 and sets
the result pointer to `nullptr`) or an error number. -/
inductive DbAnswer
  | found (name : Str)
  | notFound
  | error
  deriving DecidableEq

/-- The network databases: `getprotobynumber_r()` and `getservbyport_r()` (port in host order, protocol name). -/
structure NetDb where
  protoByNumber : Int → DbAnswer
  servByPort : Nat → Str → DbAnswer

/-- `(mode & flags) != 0`. -/
def anyOf (mode flags : BitVec 32) : Bool := mode &&& flags != 0

/-- `operator << (int)` and `std::to_string(int)`. -/
def intStr (n : Int) : Str := if n < 0 then '-' :: Inet.decStr n.natAbs else Inet.decStr n.natAbs

namespace Addr

/-- `addr::is_hostname_an_ip()`, addr.cpp:951-964. -/
def isHostnameAnIp (a : Addr) : Bool :=
  if a.hostname = [] then true else (Inet.pton4 (cstr a.hostname)).isSome || (Inet.pton6 (cstr a.hostname)).isSome

/-- `addr::get_str_port()`, addr.cpp:2393-2396. -/
def getStrPort (a : Addr) : Str := Inet.decStr a.getPort

/-- `addr::get_protocol_name()`, addr.cpp:2451-2481. When the number is not known, `getprotobynumber_r()` returns 0 and
`p_name` still is `nullptr`, from which a `std::string` gets constructed. -/
def getProtocolName (db : NetDb) (a : Addr) : Res Str :=
  match db.protoByNumber a.protocol with
  | .found name => .ok name
  | .notFound => .ub .nullString
  | .error => .ok []

/-- `addr::get_port_name()`, addr.cpp:2355-2384. -/
def getPortName (db : NetDb) (a : Addr) : Res Str :=
  a.getProtocolName db >>= fun proto =>
    match db.servByPort a.getPort (cstr proto) with
    | .found name => .ok name
    | .notFound => .ok []
    | .error => .ok []

/-- The part of `to_ipv4_string()` and `to_ipv6_string()` which prints the port, addr.cpp:1296-1316 and 1443-1463. -/
def portPart (db : NetDb) (mode : BitVec 32) (a : Addr) : Res Str :=
  if anyOf mode (STRING_IP_PORT ||| STRING_IP_PORT_NAME) then
    let colon := if anyOf mode (STRING_IP_ADDRESS ||| STRING_IP_BRACKET_ADDRESS) then [':'] else []
    if anyOf mode STRING_IP_PORT_NAME then
      a.getPortName db >>= fun name =>
        if name = [] then .ok (colon ++ a.getStrPort) else .ok (colon ++ name)
    else .ok (colon ++ a.getStrPort)
  else .ok []

/-- The test which decides whether the mask is printed, addr.cpp:1318-1319 and 1465-1466. -/
def wantsMask (mode : BitVec 32) (a : Addr) : Bool :=
  anyOf mode (STRING_IP_MASK ||| STRING_IP_BRACKET_MASK ||| STRING_IP_MASK_AS_ADDRESS ||| STRING_IP_MASK_IF_NEEDED)
    && (a.getMaskSize != 128 || !anyOf mode STRING_IP_MASK_IF_NEEDED)

/-- The slash before the mask, addr.cpp:1340-1346 and 1476-1482. -/
def maskSlash (mode : BitVec 32) : Str :=
  if anyOf mode (STRING_IP_ADDRESS ||| STRING_IP_BRACKET_ADDRESS ||| STRING_IP_PORT ||| STRING_IP_PORT_NAME) then ['/'] else []

/-- The number of bits used to print the mask, -1 to print it as an address, addr.cpp:1347-1351 and 1483-1487. -/
def maskBits (mode : BitVec 32) (a : Addr) : Int :=
  if anyOf mode STRING_IP_MASK_AS_ADDRESS then -1 else a.getMaskSize

/-- The mask in `to_ipv4_string()`, addr.cpp:1318-1360. -/
def maskPart4 (mode : BitVec 32) (a : Addr) : Res Str :=
  if a.wantsMask mode then
    if a.isMaskIpv4Compatible then
      let bits := a.maskBits mode
      .ok (maskSlash mode ++
        if bits = -1 then Inet.ntop4 #v[a.mask[12], a.mask[13], a.mask[14], a.mask[15]] else intStr (bits - 96))
    else .throw .unexpectedMask
  else .ok []

/-- The address in `to_ipv4_string()`, addr.cpp:1265-1294. -/
def addressPart4 (mode : BitVec 32) (a : Addr) : Res Str :=
  if anyOf mode (STRING_IP_ADDRESS ||| STRING_IP_BRACKET_ADDRESS) then
    if a.isIpv4 then
      if anyOf mode STRING_IP_DEFAULT_AS_ASTERISK && a.isDefault then .ok ['*']
      else .ok (Inet.ntop4 #v[a.bytes[12], a.bytes[13], a.bytes[14], a.bytes[15]])
    else .throw .invalidState
  else .ok []

/-- `addr::to_ipv4_string()`, addr.cpp:1258-1363. -/
def toIpv4String (db : NetDb) (mode : BitVec 32) (a : Addr) : Res Str :=
  a.addressPart4 mode >>= fun x =>
    a.portPart db mode >>= fun y =>
      a.maskPart4 mode >>= fun z => .ok (x ++ y ++ z)

/-- The initial value of `include_brackets`, addr.cpp:1389-1393. -/
def includeBrackets (mode : BitVec 32) : Bool :=
  anyOf mode (STRING_IP_BRACKET_ADDRESS ||| STRING_IP_BRACKET_MASK ||| STRING_IP_PORT ||| STRING_IP_PORT_NAME)

/-- Put brackets around a text. -/
def bracketed (b : Bool) (s : Str) : Str := if b then '[' :: s ++ [']'] else s

/-- The address in `to_ipv6_string()`, addr.cpp:1395-1441, with the final value of `include_brackets`. -/
def addressPart6 (mode : BitVec 32) (a : Addr) : Str × Bool :=
  let br := includeBrackets mode
  if anyOf mode (STRING_IP_ADDRESS ||| STRING_IP_BRACKET_ADDRESS) then
    if a.isDefault then
      if anyOf mode STRING_IP_DEFAULT_AS_ASTERISK then (bracketed br ['*'], br)
      else if anyOf mode STRING_IP_DEFAULT_AS_IPV4 then ("0.0.0.0".toList, false)
      else (bracketed br [':', ':'], br)
    else (bracketed br (Inet.ntop6 a.bytes), br)
  else ([], br)

/-- The mask in `to_ipv6_string()`, addr.cpp:1465-1504. -/
def maskPart6 (mode : BitVec 32) (brackets : Bool) (a : Addr) : Str :=
  if a.wantsMask mode then
    let bits := a.maskBits mode
    maskSlash mode ++ if bits = -1 then bracketed brackets (Inet.ntop6 a.mask) else intStr bits
  else []

/-- `addr::to_ipv6_string()`, addr.cpp:1385-1507. -/
def toIpv6String (db : NetDb) (mode : BitVec 32) (a : Addr) : Res Str :=
  let x := a.addressPart6 mode
  a.portPart db mode >>= fun y => .ok (x.1 ++ y ++ a.maskPart6 mode x.2)

/-- `addr::to_ipv4or6_string()`, addr.cpp:1525-1529. -/
def toIpv4or6String (db : NetDb) (mode : BitVec 32) (a : Addr) : Res Str :=
  if a.isIpv4 then a.toIpv4String db mode else a.toIpv6String db mode

end Addr

namespace Range

/-- `addr_range::to_string()`, addr_range.cpp:530-572. -/
def toStr (db : NetDb) (mode : BitVec 32) (r : Range) : Res Str :=
  if r.isEmpty || (!r.hasFrom && !r.hasTo) then .ok "<empty address range>".toList
  else if r.hasFrom && r.hasTo then
    r.lo.toIpv4or6String db (mode &&& (STRING_IP_ADDRESS ||| STRING_IP_BRACKET_ADDRESS)) >>= fun f =>
      r.hi.toIpv4or6String db mode >>= fun t => .ok (f ++ '-' :: t)
  else if r.hasFrom then r.lo.toIpv4or6String db mode
  else r.hi.toIpv4or6String db mode >>= fun t => .ok ('-' :: t)

/-- `addr_range::to_string(vector_t const &, ...)`, addr_range.cpp:593-621. -/
def toStrAll (db : NetDb) (mode : BitVec 32) (sep : Str) : List Range → (first : Bool) → Res Str
  | [], _ => .ok []
  | r :: rs, first =>
    r.toStr db mode >>= fun s =>
      toStrAll db mode sep rs false >>= fun t => .ok ((if first then [] else sep) ++ s ++ t)

end Range

end Verif
