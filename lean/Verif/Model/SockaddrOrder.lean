import Verif.Model.Addr

/-!
# Model of the comparisons of `sockaddr_in6` in `libaddr/addr.h`
-/

namespace Verif

namespace SockaddrIn6

/-- The bytes of a 16 bit word in the memory of a little-endian host. -/
def bytes16 (x : BitVec 16) : List Byte := [x.setWidth 8, (x >>> 8).setWidth 8]

/-- The bytes of a 32 bit word in the memory of a little-endian host. -/
def bytes32 (x : BitVec 32) : List Byte := [x.setWidth 8, (x >>> 8).setWidth 8, (x >>> 16).setWidth 8, (x >>> 24).setWidth 8]

/-- The 28 bytes of the structure (`<netinet/in.h>`), there is no padding. -/
def memory (s : SockaddrIn6) : List Byte :=
  bytes16 s.family ++ bytes16 s.port ++ bytes32 s.flowinfo ++ s.addr.toList ++ bytes32 s.scope

/-- `memcmp(&a, &b, sizeof(sockaddr_in6))`, addr.h:501-534. -/
def cmp (a b : SockaddrIn6) : Int := Addr.memcmp a.memory b.memory

/-- `operator ==`, addr.h:501-504. -/
def eq (a b : SockaddrIn6) : Bool := cmp a b == 0
/-- `operator !=`, addr.h:507-510. -/
def ne (a b : SockaddrIn6) : Bool := cmp a b != 0
/-- `operator <`, addr.h:513-516. -/
def lt (a b : SockaddrIn6) : Bool := cmp a b < 0
/-- `operator <=`, addr.h:519-522. -/
def le (a b : SockaddrIn6) : Bool := cmp a b ≤ 0
/-- `operator >`, addr.h:525-528. -/
def gt (a b : SockaddrIn6) : Bool := cmp a b > 0
/-- `operator >=`, addr.h:531-534. -/
def ge (a b : SockaddrIn6) : Bool := cmp a b ≥ 0

end SockaddrIn6

end Verif
