import Verif.Basic
import Verif.SpecText

/-!
# Specification of the route table

What the kernel prints in `/proc/net/route` (`fib_route_seq_show()` of `net/ipv4/fib_trie.c`).
-/

namespace Verif

/-- A route as the kernel knows it; addresses are four bytes, the first one being the most significant. -/
structure KernelRoute where
  iface : Str
  destination : Bytes4
  gateway : Bytes4
  flags : BitVec 16
  refcnt : Int
  use : Nat
  metric : Int
  mask : Bytes4
  mtu : Int
  window : Nat
  irtt : Nat

namespace Spec

/-- A digit as printed by `%X`. -/
def hexDigitUpper (n : Nat) : Char := if n < 10 then Char.ofNat (48 + n) else Char.ofNat (55 + n)

/-- Two digits. -/
def hexByteUpper (b : Byte) : Str := [hexDigitUpper (b.toNat / 16), hexDigitUpper (b.toNat % 16)]

/-- `%08X` of the four bytes read as a number by a little-endian host. -/
def hexLittle (b : Bytes4) : Str := hexByteUpper b[3] ++ hexByteUpper b[2] ++ hexByteUpper b[1] ++ hexByteUpper b[0]

/-- `%04X`. -/
def hex16 (f : BitVec 16) : Str := hexByteUpper ((f >>> 8).setWidth 8) ++ hexByteUpper (f.setWidth 8)

/-- `%d`. -/
def signedStr (n : Int) : Str := if n < 0 then '-' :: dec n.natAbs else dec n.natAbs

/-- The first line, with the blanks after its last column. -/
def routeHeader (pad : Nat) : Str :=
  "Iface\tDestination\tGateway \tFlags\tRefCnt\tUse\tMetric\tMask\t\tMTU\tWindow\tIRTT".toList
    ++ List.replicate (pad + 1) ' ' ++ ['\n']

/-- One line. -/
def routeLine (r : KernelRoute) (pad : Nat) : Str :=
  r.iface ++ '\t' :: hexLittle r.destination ++ '\t' :: hexLittle r.gateway ++ '\t' :: hex16 r.flags
    ++ '\t' :: signedStr r.refcnt ++ '\t' :: dec r.use ++ '\t' :: signedStr r.metric ++ '\t' :: hexLittle r.mask
    ++ '\t' :: signedStr r.mtu ++ '\t' :: dec r.window ++ '\t' :: dec r.irtt ++ List.replicate (pad + 1) ' ' ++ ['\n']

/-- The file: each line comes with its number of blanks, one at least. -/
def routeTable (pad : Nat) (routes : List (KernelRoute × Nat)) : Str :=
  routeHeader pad ++ (routes.map fun r => routeLine r.1 r.2).flatten

/-- A route which the kernel can have: the name of its interface is not empty and has no blank; the numbers are those of
their types. -/
def KernelRouteOk (r : KernelRoute) : Prop :=
  r.iface ≠ [] ∧ (∀ c ∈ r.iface, c ≠ ' ' ∧ c ≠ '\t' ∧ c ≠ '\n') ∧ IsCInt r.refcnt ∧ r.use < 4294967296 ∧ IsCInt r.metric ∧
    IsCInt r.mtu ∧ r.window < 4294967296 ∧ r.irtt < 4294967296

/-- The flags of a route: the bit of `RTF_...` in `<linux/route.h>` and `<linux/ipv6_route.h>`, and the letter which
route(8) prints for it, or the one chosen by libaddr when route(8) prints none (`d`, `a`, `o`, `f`, `p`, `l`, `u`, `w`, `i`). -/
def kernelFlags : List (Nat × Char) :=
  [(0, 'U'), (1, 'G'), (2, 'H'), (3, 'R'), (4, 'D'), (5, 'M'), (6, 'u'), (7, 'w'), (8, 'i'), (9, '!'),
   (16, 'd'), (17, 'a'), (18, 'c'), (21, 'o'), (24, 'C'), (25, 'f'), (26, 'p'), (31, 'l')]

end Spec

end Verif
