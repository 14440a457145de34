import Verif.Basic

/-!
# Model of `libaddr/addr.h` and `libaddr/addr.cpp`: the `addr` class

The text functions are in `Model/AddrText.lean` and the socket functions in `Model/Socket.lean`.
-/

namespace Verif

/-- `AF_INET` on Linux. -/
def AF_INET : BitVec 16 := 2
/-- `AF_INET6` on Linux. -/
def AF_INET6 : BitVec 16 := 10
/-- `IPPROTO_IP`. -/
def IPPROTO_IP : Int := 0
/-- `IPPROTO_TCP`. -/
def IPPROTO_TCP : Int := 6
/-- `IPPROTO_UDP`. -/
def IPPROTO_UDP : Int := 17

/-- `htons()`/`ntohs()` on a little-endian host: swap the two bytes. -/
def swap16 (x : BitVec 16) : BitVec 16 := (x.setWidth 8) ++ ((x >>> 8).setWidth 8)

/-- `sockaddr_in` (`<netinet/in.h>`); `port` is the raw field, in network order as seen by the host. -/
structure SockaddrIn where
  family : BitVec 16
  port : BitVec 16
  addr : Bytes4
  zero : Vector Byte 8
  deriving DecidableEq

/-- `sockaddr_in6` (`<netinet/in.h>`); `port` is the raw field. -/
structure SockaddrIn6 where
  family : BitVec 16
  port : BitVec 16
  flowinfo : BitVec 32
  addr : Bytes16
  scope : BitVec 32
  deriving DecidableEq

/-- `network_type_t`, addr.h:96-108 (`PUBLIC` is the same value as `UNKNOWN`). -/
inductive NetType
  | undefined | priv | carrier | linkLocal | multicast | loopback | any | documentation | unknown
  deriving DecidableEq, Repr

/-- `init_in6()`, addr.h:62-67. -/
def initIn6 : SockaddrIn6 :=
  { family := AF_INET6, port := 0, flowinfo := 0, addr := Vector.replicate 16 0, scope := 0 }

/-- The data members of class `addr`, addr.h:251-259. -/
structure Addr where
  address : SockaddrIn6
  mask : Bytes16
  portDefined : Bool
  protocolDefined : Bool
  maskDefined : Bool
  protocol : Int
  privateNetwork : NetType
  interface : Str
  hostname : Str
  deriving DecidableEq

namespace Addr

/-- `addr::addr()`, addr.cpp:312-315 with the member initializers of addr.h:251-259. -/
def default : Addr :=
  { address := initIn6, mask := Vector.replicate 16 0xFF, portDefined := false, protocolDefined := false,
    maskDefined := false, protocol := IPPROTO_TCP, privateNetwork := .undefined, interface := [], hostname := [] }

instance : Inhabited Addr := ⟨default⟩

/-- The sixteen bytes `f_address.sin6_addr.s6_addr`. -/
def bytes (a : Addr) : Bytes16 := a.address.addr

/-- Replace `f_address.sin6_addr.s6_addr`. -/
def setBytes (a : Addr) (b : Bytes16) : Addr := { a with address := { a.address with addr := b } }

/-- `addr::address_changed()`, addr.cpp:2990-2993. -/
def addressChanged (a : Addr) : Addr := { a with privateNetwork := .undefined }

/-- `addr::set_ipv4()`, addr.cpp:356-381. -/
def setIpv4 (inp : SockaddrIn) : SM Addr Unit := fun a =>
  if inp.family ≠ AF_INET then (a, .throw .invalidArgument)
  else
    (addressChanged { a with address :=
      { family := AF_INET6, port := inp.port, flowinfo := 0, scope := 0,
        addr := #v[0, 0, 0, 0, 0, 0, 0, 0, 0, 0, 0xFF, 0xFF, inp.addr[0], inp.addr[1], inp.addr[2], inp.addr[3]] } },
     .ok ())

/-- `addr::addr(sockaddr_in const &)`, addr.cpp:325-329. -/
def ofIn (inp : SockaddrIn) : Res Addr :=
  match setIpv4 inp default with
  | (a, .ok ()) => .ok a
  | (_, .throw e) => .throw e
  | (_, .ub w) => .ub w

/-- `addr::set_ipv4_loopback()`, addr.cpp:392-400. -/
def setIpv4Loopback : SM Addr Unit := fun a =>
  setIpv4 { family := AF_INET, port := a.address.port, addr := #v[127, 0, 0, 1], zero := Vector.replicate 8 0 } a

/-- `addr::set_ipv6()`, addr.cpp:1193-1202. -/
def setIpv6 (in6 : SockaddrIn6) : SM Addr Unit := fun a =>
  if in6.family ≠ AF_INET6 then (a, .throw .invalidArgument)
  else (addressChanged { a with address := in6 }, .ok ())

/-- `addr::addr(sockaddr_in6 const &)`, addr.cpp:339-343. -/
def ofIn6 (in6 : SockaddrIn6) : Res Addr :=
  match setIpv6 in6 default with
  | (a, .ok ()) => .ok a
  | (_, .throw e) => .throw e
  | (_, .ub w) => .ub w

/-- `addr::set_ipv6_loopback()`, addr.cpp:1209-1217. -/
def setIpv6Loopback : SM Addr Unit := fun a =>
  setIpv6 { family := AF_INET6, port := a.address.port, flowinfo := 0, scope := 0,
            addr := #v[0, 0, 0, 0, 0, 0, 0, 0, 0, 0, 0, 0, 0, 0, 0, 1] } a

/-- `addr::get_ipv6()`, addr.cpp:1228-1231. -/
def getIpv6 (a : Addr) : SockaddrIn6 := a.address

/-- The 32 bit word `s6_addr32[i]` as a little-endian host reads it. -/
def word32 (b : Bytes16) (i : Fin 4) : BitVec 32 :=
  b[4 * i.val + 3] ++ b[4 * i.val + 2] ++ b[4 * i.val + 1] ++ b[4 * i.val]

/-- The 16 bit word `s6_addr16[i]` as a little-endian host reads it. -/
def word16 (b : Bytes16) (i : Fin 8) : BitVec 16 := b[2 * i.val + 1] ++ b[2 * i.val]

/-- `htonl()`/`ntohl()` on a little-endian host. -/
def swap32 (x : BitVec 32) : BitVec 32 :=
  x.setWidth 8 ++ (x >>> 8).setWidth 8 ++ (x >>> 16).setWidth 8 ++ (x >>> 24).setWidth 8

/-- `addr::is_ipv4()`, addr.cpp:1147-1153. -/
def isIpv4 (a : Addr) : Bool :=
  word32 a.bytes 0 == 0 && word32 a.bytes 1 == 0 && word16 a.bytes 4 == 0 && word16 a.bytes 5 == 0xFFFF

/-- `addr::get_family()`, addr.cpp:974-977. -/
def getFamily (a : Addr) : BitVec 16 := if a.isIpv4 then AF_INET else AF_INET6

/-- `addr::is_default()`, addr.cpp:1003-1012. -/
def isDefault (a : Addr) : Bool :=
  word32 a.bytes 0 == 0 && word32 a.bytes 1 == 0 && word16 a.bytes 4 == 0
    && (word16 a.bytes 5 == 0 || word16 a.bytes 5 == 0xFFFF) && word32 a.bytes 3 == 0

/-- `addr::get_ipv4()`, addr.cpp:1166-1180. -/
def getIpv4 (a : Addr) : Res SockaddrIn :=
  if a.isIpv4 then
    .ok { family := AF_INET, port := a.address.port,
          addr := #v[a.bytes[12], a.bytes[13], a.bytes[14], a.bytes[15]], zero := Vector.replicate 8 0 }
  else .throw .invalidState

/-- `addr::set_interface()`, addr.cpp:2076-2079. -/
def setInterface (s : Str) : SM Addr Unit := fun a => ({ a with interface := s }, .ok ())

/-- `addr::set_hostname()`, addr.cpp:2094-2097. -/
def setHostname (s : Str) : SM Addr Unit := fun a => ({ a with hostname := s }, .ok ())

/-- `addr::set_port_defined()`, addr.cpp:411-414. -/
def setPortDefined (d : Bool) : SM Addr Unit := fun a => ({ a with portDefined := d }, .ok ())

/-- `addr::set_port(int)`, addr.cpp:487-496. -/
def setPort (port : Int) : SM Addr Unit := fun a =>
  if port > 65535 ∨ port < 0 then (a, .throw .invalidArgument)
  else ({ a with portDefined := true,
                 address := { a.address with port := swap16 (BitVec.ofInt 16 port) } }, .ok ())

/-- `addr::get_port()`, addr.cpp:2342-2345. -/
def getPort (a : Addr) : Nat := (swap16 a.address.port).toNat

/-- Implicit conversion of a 64 bit integer to `int` (addr.cpp:436, addr_parser.cpp:325): modulo `2^32`. -/
def toCInt (n : Int) : Int := (BitVec.ofInt 32 n).toInt

/-- `addr::set_port(char const *)`, addr.cpp:429-469. `convert` is `advgetopt::validator_integer::convert_string()` on
the given string and `service` what `getservbyname_r()` finds for it (`s_port` through `ntohs()`). -/
def setPortStr (convert : Option Int) (service : Option (BitVec 16)) : SM Addr Bool := fun a =>
  match convert with
  | some p =>
    match setPort (toCInt p) a with
    | (a', .ok ()) => (a', .ok true)
    | (a', .throw e) => (a', .throw e)
    | (a', .ub w) => (a', .ub w)
  | none =>
    match service with
    | some p =>
      match setPort p.toNat a with
      | (a', .ok ()) => (a', .ok true)
      | (a', .throw e) => (a', .throw e)
      | (a', .ub w) => (a', .ub w)
    | none => (a, .ok false)

/-- `addr::set_protocol_defined()`, addr.cpp:517-520. -/
def setProtocolDefined (d : Bool) : SM Addr Unit := fun a => ({ a with protocolDefined := d }, .ok ())

/-- `addr::set_protocol(int)`, addr.cpp:598-628. -/
def setProtocol (p : Int) : SM Addr Unit := fun a =>
  if p = IPPROTO_IP ∨ p = IPPROTO_TCP ∨ p = IPPROTO_UDP then
    if p ≠ a.protocol then
      (addressChanged { a with protocolDefined := true, protocol := p }, .ok ())
    else (a, .ok ())
  else (a, .throw .invalidArgument)

/-- `addr::set_protocol(char const *)`, addr.cpp:539-574. `none` stands for a null pointer; otherwise the inner option is
what `getprotobyname_r()` finds for the string. -/
def setProtocolStr (found : Option (Option Int)) : SM Addr Unit := fun a =>
  match found with
  | none => (a, .throw .invalidArgument)
  | some none => (a, .throw .invalidArgument)
  | some (some p) => setProtocol p a

/-- `addr::set_mask_defined()`, addr.cpp:644-647. -/
def setMaskDefined (d : Bool) : SM Addr Unit := fun a => ({ a with maskDefined := d }, .ok ())

/-- `addr::set_mask()`, addr.cpp:660-664. -/
def setMask (m : Bytes16) : SM Addr Unit := fun a => ({ a with maskDefined := true, mask := m }, .ok ())

/-- The loops of `addr::set_mask_count()`, addr.cpp:689-707: the `count` bytes still to write when `maskSize` bits are
still to set. -/
def fillMask : (count maskSize : Nat) → List Byte
  | 0, _ => []
  | count + 1, maskSize =>
    if maskSize ≥ 8 then 0xFF :: fillMask count (maskSize - 8)
    else if maskSize ≠ 0 then ((0xFF00 : BitVec 16) >>> maskSize).setWidth 8 :: fillMask count 0
    else 0 :: fillMask count 0

theorem fillMask_length (count maskSize : Nat) : (fillMask count maskSize).length = count := by
  induction count generalizing maskSize with
  | zero => rfl
  | succ n ih =>
    simp only [fillMask]
    repeat' split
    all_goals simp [ih]

/-- `addr::set_mask_count()`, addr.cpp:680-708. -/
def setMaskCount (maskSize : Int) : SM Addr Unit := fun a =>
  let min : Int := if a.isIpv4 then 96 else 0
  if maskSize < min ∨ maskSize > 128 then (a, .throw .outOfRange)
  else
    ({ a with maskDefined := true,
              mask := ⟨(fillMask 16 maskSize.toNat).toArray, by simp [fillMask_length]⟩ }, .ok ())

/-- `addr::apply_mask()`, addr.cpp:733-746. -/
def applyMask (inversed : Bool) (a : Addr) : Addr :=
  a.setBytes (Vector.zipWith (fun x m => if inversed then x ||| ~~~m else x &&& m) a.bytes a.mask)

/-- `addr::get_mask()`, addr.cpp:760-763. -/
def getMask (a : Addr) : Bytes16 := a.mask

/-- The loop of `addr::get_mask_size()`, addr.cpp:788-857. -/
def maskSizeLoop : List Byte → (found : Bool) → (count : Int) → Int
  | [], _, count => count
  | b :: l, true, count => if b ≠ 0 then -1 else maskSizeLoop l true count
  | b :: l, false, count =>
    if b = 0xFF then maskSizeLoop l false (count + 8)
    else if b = 0xFE then maskSizeLoop l true (count + 7)
    else if b = 0xFC then maskSizeLoop l true (count + 6)
    else if b = 0xF8 then maskSizeLoop l true (count + 5)
    else if b = 0xF0 then maskSizeLoop l true (count + 4)
    else if b = 0xE0 then maskSizeLoop l true (count + 3)
    else if b = 0xC0 then maskSizeLoop l true (count + 2)
    else if b = 0x80 then maskSizeLoop l true (count + 1)
    else if b = 0x00 then maskSizeLoop l true count
    else -1

/-- `addr::get_mask_size()`, addr.cpp:788-857. -/
def getMaskSize (a : Addr) : Int := maskSizeLoop a.mask.toList false 0

/-- `addr::is_mask_ipv4_compatible()`, addr.cpp:872-883. -/
def isMaskIpv4Compatible (a : Addr) : Bool := (a.mask.toList.take 12).all (· == 255)

/-- `addr::ip_to_uint128()`, addr.cpp:1541-1554. -/
def ipToUint128 (a : Addr) : BitVec 128 :=
  a.bytes.toList.foldl (fun r b => (r <<< 8) ||| b.setWidth 128) 0

/-- The loop of `addr::ip_from_uint128()`, addr.cpp:1562-1568, filling `n` bytes from the last one. -/
def fromUintLoop : (n : Nat) → BitVec 128 → List Byte
  | 0, _ => []
  | n + 1, u => fromUintLoop n (u >>> 8) ++ [u.setWidth 8]

theorem fromUintLoop_length (n : Nat) (u : BitVec 128) : (fromUintLoop n u).length = n := by
  induction n generalizing u with
  | zero => rfl
  | succ n ih => simp [fromUintLoop, ih]

/-- `addr::ip_from_uint128()`, addr.cpp:1560-1569. -/
def ipFromUint128 (u : BitVec 128) (a : Addr) : Addr :=
  a.setBytes ⟨(fromUintLoop 16 u).toArray, by simp [fromUintLoop_length]⟩

/-- The decision part of `addr::get_network_type()`, addr.cpp:1599-1697. -/
def classify (b : Bytes16) (ipv4 : Bool) : NetType :=
  if ipv4 then
    let hostIp := swap32 (word32 b 3)
    if hostIp &&& 0xFF000000 == 0x0A000000 || hostIp &&& 0xFFF00000 == 0xAC100000
        || hostIp &&& 0xFFFF0000 == 0xC0A80000 then .priv
    else if hostIp &&& 0xFFC00000 == 0x64400000 then .carrier
    else if hostIp &&& 0xFFFF0000 == 0xA9FE0000 then .linkLocal
    else if hostIp &&& 0xF0000000 == 0xE0000000 then .multicast
    else if hostIp &&& 0xFF000000 == 0x7F000000 then .loopback
    else if hostIp == 0x00000000 then .any
    else .unknown
  else if word32 b 0 == 0 && word32 b 1 == 0 && word32 b 2 == 0 && word32 b 3 == 0 then .any
  else
    let pfx := swap16 (word16 b 0)
    if pfx &&& 0xFF00 == 0xFD00 then .priv
    else if pfx &&& 0xFFC0 == 0xFE80 || pfx &&& 0xFF0F == 0xFF02 then .linkLocal
    else if pfx &&& 0xFF0F == 0xFF01
        || (word32 b 0 == 0 && word32 b 1 == 0 && word32 b 2 == 0 && word16 b 6 == 0
            && word16 b 7 == swap16 1) then .loopback
    else if pfx &&& 0xFF00 == 0xFF00 then .multicast
    else if pfx == 0x2001 then
      let nextPrefix := swap16 (word16 b 1)
      if nextPrefix == 0x0DB8 then .documentation else .unknown
    else if pfx == 0x3FFF then
      let nextPrefix := swap16 (word16 b 1)
      if nextPrefix &&& 0xF000 == 0x0000 then .documentation else .unknown
    else .unknown

/-- `addr::get_network_type()`, addr.cpp:1595-1701. The member `f_private_network` is a cache: the function is `const`
but updates it, so the object is returned as well. -/
def getNetworkType (a : Addr) : Addr × NetType :=
  if a.privateNetwork = .undefined then
    let t := classify a.bytes a.isIpv4
    ({ a with privateNetwork := t }, t)
  else (a, a.privateNetwork)

/-- `addr::get_network_type_string()`, addr.cpp:1714-1747. -/
def getNetworkTypeString (a : Addr) : String :=
  match a.getNetworkType.2 with
  | .undefined => "Undefined"
  | .priv => "Private"
  | .carrier => "Carrier"
  | .linkLocal => "Local Link"
  | .multicast => "Multicast"
  | .loopback => "Loopback"
  | .any => "Any"
  | .documentation => "Documentation"
  | .unknown => "Unknown"

/-- `addr::is_valid()`, addr.cpp:1032-1045. -/
def isValid (a : Addr) : Bool :=
  match a.getNetworkType.2 with
  | .documentation | .undefined => false
  | _ => true

/-- `addr::is_lan()`, addr.cpp:1072-1100. -/
def isLan (includeAll : Bool) (a : Addr) : Bool :=
  let type := a.getNetworkType.2
  if type = .priv ∨ type = .loopback then true
  else if !includeAll then false
  else match type with
    | .carrier | .linkLocal | .multicast => true
    | _ => false

/-- `addr::is_wan()`, addr.cpp:1119-1135. -/
def isWan (includeDefault : Bool) (a : Addr) : Bool :=
  let type := a.getNetworkType.2
  if type = .unknown then true
  else if includeDefault ∧ type = .any then true
  else false

/-- `addr::match()`, addr.cpp:2505-2522. -/
def matchAddr (a ip : Addr) (any : Bool := false) : Bool :=
  if any && a.isDefault then true
  else (List.range 16).all fun idx =>
    a.bytes.toList.getD idx 0 &&& a.mask.toList.getD idx 0 == ip.bytes.toList.getD idx 0 &&& a.mask.toList.getD idx 0

/-- `addr::is_next()`, addr.cpp:2538-2548. -/
def isNext (a b : Addr) : Bool :=
  let lhs := a.ipToUint128
  let rhs := b.ipToUint128
  lhs != 0xFFFFFFFFFFFFFFFFFFFFFFFFFFFFFFFF && lhs + 1 == rhs

/-- `addr::is_previous()`, addr.cpp:2564-2572. -/
def isPrevious (a b : Addr) : Bool :=
  let lhs := a.ipToUint128
  let rhs := b.ipToUint128
  lhs != 0 && lhs - 1 == rhs

/-- `memcmp()` on two buffers of the same size: the sign of the first difference of bytes taken as unsigned. -/
def memcmp : List Byte → List Byte → Int
  | x :: l, y :: m => if x = y then memcmp l m else if x.toNat < y.toNat then -1 else 1
  | _, _ => 0

/-- The comparison of two `in6_addr`, addr.h:537-570. -/
def cmp (a b : Addr) : Int := memcmp a.bytes.toList b.bytes.toList

/-- `addr::operator ==`, addr.cpp:2587-2590 with addr.h:537-540. -/
def eq (a b : Addr) : Bool := cmp a b == 0
/-- `addr::operator !=`, addr.cpp:2605-2608 with addr.h:543-546. -/
def ne (a b : Addr) : Bool := cmp a b != 0
/-- `addr::operator <`, addr.cpp:2624-2627 with addr.h:549-552. -/
def lt (a b : Addr) : Bool := cmp a b < 0
/-- `addr::operator <=`, addr.cpp:2642-2645 with addr.h:555-558. -/
def le (a b : Addr) : Bool := cmp a b ≤ 0
/-- `addr::operator >`, addr.cpp:2661-2664 with addr.h:561-564. -/
def gt (a b : Addr) : Bool := cmp a b > 0
/-- `addr::operator >=`, addr.cpp:2680-2683 with addr.h:567-570. -/
def ge (a b : Addr) : Bool := cmp a b ≥ 0

/-- `snapdev::saturated_add()` on `unsigned __int128` (snapdev/math.h, not in this repository). -/
def saturatedAdd (l r : BitVec 128) : BitVec 128 := if l + r < l then BitVec.allOnes 128 else l + r

/-- `snapdev::saturated_subtract()` on `unsigned __int128` (snapdev/math.h, not in this repository). -/
def saturatedSubtract (l r : BitVec 128) : BitVec 128 := if l < r then 0 else l - r

/-- `addr::operator ++ ()`, addr.cpp:2704-2710: the new object (also what is returned). -/
def preInc (a : Addr) : Addr := a.ipFromUint128 (saturatedAdd a.ipToUint128 1)

/-- `addr::operator ++ (int)`, addr.cpp:2731-2738: the new object and the returned copy. -/
def postInc (a : Addr) : Addr × Addr := (a.ipFromUint128 (saturatedAdd a.ipToUint128 1), a)

/-- `addr::operator -- ()`, addr.cpp:2759-2765. -/
def preDec (a : Addr) : Addr := a.ipFromUint128 (saturatedSubtract a.ipToUint128 1)

/-- `addr::operator -- (int)`, addr.cpp:2787-2794. -/
def postDec (a : Addr) : Addr × Addr := (a.ipFromUint128 (saturatedSubtract a.ipToUint128 1), a)

/-- `static_cast<unsigned int>(-offset)` widened to 128 bits; negating `INT_MIN` overflows. -/
def negOffset (offset : Int) : Res (BitVec 128) :=
  if offset = -2147483648 then .ub .signedOverflow else .ok ((BitVec.ofInt 32 (-offset)).setWidth 128)

/-- `addr::operator + (int)`, addr.cpp:2819-2831. -/
def add (a : Addr) (offset : Int) : Res Addr :=
  if offset < 0 then do
    let o ← negOffset offset
    return a.ipFromUint128 (saturatedSubtract a.ipToUint128 o)
  else return a.ipFromUint128 (saturatedAdd a.ipToUint128 (BitVec.ofInt 128 offset))

/-- `addr::operator - (int)`, addr.cpp:2857-2869. -/
def sub (a : Addr) (offset : Int) : Res Addr :=
  if offset < 0 then do
    let o ← negOffset offset
    return a.ipFromUint128 (saturatedAdd a.ipToUint128 o)
  else return a.ipFromUint128 (saturatedSubtract a.ipToUint128 (BitVec.ofInt 128 offset))

/-- `addr::operator - (addr const &)`, addr.cpp:2899-2902: the unsigned difference reinterpreted as signed. -/
def diff (a rhs : Addr) : Int := (a.ipToUint128 - rhs.ipToUint128).toInt

/-- `addr::operator += (int)`, addr.cpp:2929-2940. -/
def addAssign (offset : Int) : SM Addr Unit := fun a =>
  if offset < 0 then
    match negOffset offset with
    | .ok o => (a.ipFromUint128 (saturatedSubtract a.ipToUint128 o), .ok ())
    | .throw e => (a, .throw e)
    | .ub w => (a, .ub w)
  else (a.ipFromUint128 (saturatedAdd a.ipToUint128 (BitVec.ofInt 128 offset)), .ok ())

/-- `addr::operator -= (int)`, addr.cpp:2967-2978. -/
def subAssign (offset : Int) : SM Addr Unit := fun a =>
  if offset < 0 then
    match negOffset offset with
    | .ok o => (a.ipFromUint128 (saturatedAdd a.ipToUint128 o), .ok ())
    | .throw e => (a, .throw e)
    | .ub w => (a, .ub w)
  else (a.ipFromUint128 (saturatedSubtract a.ipToUint128 (BitVec.ofInt 128 offset)), .ok ())

end Addr

end Verif
