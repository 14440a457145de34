import Verif.Model.Addr

/-!
# Model of the socket functions of `libaddr/addr.cpp`

The kernel is outside of the model: the functions which call it take its answers as parameters and return the calls they
made with their arguments.
-/

namespace Verif

/-- `SOCK_STREAM` on Linux. -/
def SOCK_STREAM : BitVec 32 := 1
/-- `SOCK_DGRAM` on Linux. -/
def SOCK_DGRAM : BitVec 32 := 2
/-- `SOCK_NONBLOCK` on Linux. -/
def SOCK_NONBLOCK : BitVec 32 := 0x800
/-- `SOCK_CLOEXEC` on Linux. -/
def SOCK_CLOEXEC : BitVec 32 := 0x80000

/-- The structure a `sockaddr const *` points to. -/
inductive SockArg
  | in4 (s : SockaddrIn)
  | in6 (s : SockaddrIn6)
  deriving DecidableEq

/-- A system call with the arguments which matter here. `len` is the size of the structure in bytes. -/
inductive SysCall
  | socket (family : BitVec 16) (type : BitVec 32) (protocol : Int)
  | setReuseAddr (fd : Int)
  | connect (fd : Int) (name : SockArg) (len : Nat)
  | bind (fd : Int) (name : SockArg) (len : Nat)
  | sendto (fd : Int) (buffer : List Byte) (name : SockArg) (len : Nat)
  deriving DecidableEq

/-- `sizeof(sockaddr_in)`. -/
def sizeofIn : Nat := 16
/-- `sizeof(sockaddr_in6)`. -/
def sizeofIn6 : Nat := 28

/-- What `getsockname()`/`getpeername()` store in the `sockaddr_storage`: the family selects the view. -/
inductive Storage
  | inet (port : BitVec 16) (addr : Bytes4) (zero : Vector Byte 8)
  | inet6 (port : BitVec 16) (flowinfo : BitVec 32) (addr : Bytes16) (scope : BitVec 32)
  /-- any other `ss_family` -/
  | other
  deriving DecidableEq

/-- The answers of the kernel to `set_from_socket()`: `none` is a failing call. -/
structure SocketInfo where
  /-- `getsockname()` -/
  sockName : Option Storage
  /-- `getpeername()` -/
  peerName : Option Storage
  /-- `getsockopt(SO_TYPE)` -/
  type : Option (BitVec 32)
  deriving DecidableEq

namespace Addr

/-- `addr::create_socket()`, addr.cpp:1773-1809. `flags` is the `socket_flag_t` value, `answer` what `socket()` returns.
The result is the list of system calls and the value returned. -/
def createSocket (flags : BitVec 32) (answer : Int) (a : Addr) : List SysCall × Int :=
  let sockFlags := (if flags &&& 0x01 ≠ 0 then SOCK_CLOEXEC else 0)
    ||| (if flags &&& 0x02 ≠ 0 then SOCK_NONBLOCK else 0)
  let family := if a.isIpv4 then AF_INET else AF_INET6
  if a.protocol = IPPROTO_IP ∨ a.protocol = IPPROTO_TCP then
    (SysCall.socket family (SOCK_STREAM ||| sockFlags) IPPROTO_TCP
      :: (if answer ≥ 0 ∧ flags &&& 0x04 ≠ 0 then [SysCall.setReuseAddr answer] else []), answer)
  else if a.protocol = IPPROTO_UDP then
    ([SysCall.socket family (SOCK_DGRAM ||| sockFlags) IPPROTO_UDP], answer)
  else ([], -1)

/-- `addr::connect()`, addr.cpp:1828-1859. -/
def connect (s : Int) (answer : Int) (a : Addr) : List SysCall × Res Int :=
  if a.protocol = IPPROTO_IP ∨ a.protocol = IPPROTO_TCP then
    if a.isIpv4 then
      match a.getIpv4 with
      | .ok ipv4 => ([SysCall.connect s (.in4 ipv4) sizeofIn], .ok answer)
      | .throw e => ([], .throw e)
      | .ub w => ([], .ub w)
    else ([SysCall.connect s (.in6 a.address) sizeofIn6], .ok answer)
  else ([], .ok (-1))

/-- `addr::bind() const`, addr.cpp:1918-1931. -/
def bindConst (s : Int) (answer : Int) (a : Addr) : List SysCall × Res Int :=
  if a.isIpv4 then
    match a.getIpv4 with
    | .ok ipv4 => ([SysCall.bind s (.in4 ipv4) sizeofIn], .ok answer)
    | .throw e => ([], .throw e)
    | .ub w => ([], .ub w)
  else ([SysCall.bind s (.in6 a.address) sizeofIn6], .ok answer)

/-- `addr::sendto()`, addr.cpp:1951-1981. -/
def sendto (s : Int) (buffer : List Byte) (answer : Int) (a : Addr) : List SysCall × Res Int :=
  if a.protocol ≠ IPPROTO_UDP then ([], .ok (-1))
  else if a.isIpv4 then
    match a.getIpv4 with
    | .ok ipv4 => ([SysCall.sendto s buffer (.in4 ipv4) sizeofIn], .ok answer)
    | .throw e => ([], .throw e)
    | .ub w => ([], .ub w)
  else ([SysCall.sendto s buffer (.in6 a.address) sizeofIn6], .ok answer)

/-- The second half of `addr::set_from_socket()`, addr.cpp:2188-2227. -/
def setTypeFromSocket (type : Option (BitVec 32)) : SM Addr Unit := fun a =>
  match type with
  | none => (a, .throw .ioError)
  | some t =>
    if t = SOCK_STREAM then ({ a with protocol := IPPROTO_TCP }, .ok ())
    else if t = SOCK_DGRAM then ({ a with protocol := IPPROTO_UDP }, .ok ())
    else (a, .throw .invalidState)

/-- `addr::set_from_socket()`, addr.cpp:2137-2228. -/
def setFromSocket (s : Int) (peer : Bool) (info : SocketInfo) : SM Addr Unit := fun a =>
  if s < 0 then (a, .throw .invalidArgument)
  else
    match (if peer then info.peerName else info.sockName) with
    | none => (a, .throw .ioError)
    | some (.inet port addr zero) =>
      SM.bind (setIpv4 { family := AF_INET, port := port, addr := addr, zero := zero })
        (fun _ => setTypeFromSocket info.type) a
    | some (.inet6 port flowinfo addr scope) =>
      SM.bind (setIpv6 { family := AF_INET6, port := port, flowinfo := flowinfo, addr := addr, scope := scope })
        (fun _ => setTypeFromSocket info.type) a
    | some .other => (a, .throw .invalidState)

/-- `addr::bind()`, addr.cpp:1890-1905. -/
def bind (s : Int) (answer : Int) (info : SocketInfo) : SM Addr Int := fun a =>
  match (a.bindConst s answer).2 with
  | .ok r =>
    if r = 0 ∧ a.getPort = 0 then
      SM.bind (setFromSocket s false info) (fun _ => SM.pure r) a
    else (a, .ok r)
  | .throw e => (a, .throw e)
  | .ub w => (a, .ub w)

/-- `addr::recvfrom()`, addr.cpp:2011-2058. `answer` is what `recvfrom(2)` returns, `from4` and `from6` what it stores in
the structure it is given (the kernel cuts a longer name to the size of the structure, so the family is arbitrary). -/
def recvfrom (s : Int) (info : SocketInfo) (answer : Int) (from4 : SockaddrIn) (from6 : SockaddrIn6) : SM Addr Int :=
  SM.bind (setFromSocket s false info) fun _ a =>
    if a.protocol ≠ IPPROTO_UDP then (a, .ok (-1))
    else if a.isIpv4 then
      if answer ≥ 0 then SM.bind (setIpv4 from4) (fun _ => SM.pure answer) a else (a, .ok answer)
    else
      if answer ≥ 0 then SM.bind (setIpv6 from6) (fun _ => SM.pure answer) a else (a, .ok answer)

end Addr

end Verif
