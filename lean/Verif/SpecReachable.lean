import Verif.Spec

/-!
# Specification: the addresses which are not reachable from everywhere

The blocks which RFC 6890 with its updates RFC 8190, 8215, 9602 and 9637 (the registries of special-purpose addresses of IANA) say not to be globally reachable, except
`2001::/23`, of which only the block for benchmarks and the one for documentation are here: the others have exceptions of their own. The two addresses of
`192.0.0.0/24` which are reachable are taken out. Multicast addresses are not those of hosts and are not in these registries.
-/

namespace Verif.Spec

/-- First address and number of bits. -/
def notReachableBlocks : List (Nat × Nat) :=
  [(v4 0 0 0 0, 104), (v4 10 0 0 0, 104), (v4 100 64 0 0, 106), (v4 127 0 0 0, 104), (v4 169 254 0 0, 112), (v4 172 16 0 0, 108), (v4 192 0 0 0, 120),
   (v4 192 0 2 0, 120), (v4 192 168 0 0, 112), (v4 198 18 0 0, 111), (v4 198 51 100 0, 120), (v4 203 0 113 0, 120), (v4 240 0 0 0, 100),
   (0, 128), (1, 128), (0x64ff9b0001 * 2 ^ 80, 48), (0x100 * 2 ^ 112, 64), (0x200100020000 * 2 ^ 80, 48), (0x20010db8 * 2 ^ 96, 32), (0x3fff * 2 ^ 112, 20),
   (0x5f00 * 2 ^ 112, 16), (0xfc00 * 2 ^ 112, 7), (0xfe80 * 2 ^ 112, 10)]

/-- The address is not globally reachable. -/
def NotReachable (v : Nat) : Prop := (∃ b ∈ notReachableBlocks, inBlock v b.1 b.2) ∧ v ≠ v4 192 0 0 9 ∧ v ≠ v4 192 0 0 10

/-- An IPv4 or IPv6 multicast address. -/
def AnyMulticast (v : Nat) : Prop := inBlock v (v4 224 0 0 0) 100 ∨ inBlock v (0xff00 * 2 ^ 112) 8

end Verif.Spec
