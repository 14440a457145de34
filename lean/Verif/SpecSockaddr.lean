import Verif.Model.Addr
import Verif.Spec

/-!
# Specification of the order of socket addresses

By family, then port, flow, address and scope. The port and the flow are numbers in network order; the order of the
families and scopes is the one of their bytes, which means nothing.
-/

namespace Verif.Spec

/-- The number of which these are the bytes, the first one in memory (the lowest of a little-endian host) being the highest. -/
def netShort (x : BitVec 16) : Nat := (x.toNat % 256) * 256 + x.toNat / 256

/-- The same for 32 bits. -/
def netLong (x : BitVec 32) : Nat :=
  (x.toNat % 256) * 2 ^ 24 + (x.toNat / 256 % 256) * 2 ^ 16 + (x.toNat / 2 ^ 16 % 256) * 256 + x.toNat / 2 ^ 24

/-- The first of the pairs which differs decides. -/
def lexBefore : List (Nat × Nat) → Prop
  | [] => False
  | (x, y) :: l => x < y ∨ x = y ∧ lexBefore l

/-- One socket address comes before another. -/
def SockaddrBefore (a b : SockaddrIn6) : Prop :=
  lexBefore [(netShort a.family, netShort b.family), (netShort a.port, netShort b.port), (netLong a.flowinfo, netLong b.flowinfo),
    (ip a.addr, ip b.addr), (netLong a.scope, netLong b.scope)]

end Verif.Spec
