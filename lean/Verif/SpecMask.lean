import Verif.SpecEntry

/-!
# Specification: the masks of entries
-/

namespace Verif.Spec

/-- The entry `t` is `e` followed by the mask `m`, which is empty when there is none. -/
def CutMask (t e m : Str) : Prop := '/' ∉ e ∧ (t = e ∧ m = [] ∨ t = e ++ '/' :: m)

/-- The number of bits which may be written after an entry: those of its address, 128 when it is in brackets or has two colons. -/
def entryBits (e : Str) : Nat := if ']' ∈ e ∨ 2 ≤ e.count ':' then 128 else 32

/-- The mask written `m` after the entry `e` makes the first `k` bits of 128 count: no mask is all of them, IPv4 addresses are in `::ffff:0:0/96`. -/
def MaskOf (e m : Str) (k : Nat) : Prop :=
  m = [] ∧ k = 128
    ∨ m ≠ [] ∧ (∀ c ∈ m, c.isDigit = true) ∧ Nat.ofDigitChars 10 m 0 ≤ entryBits e ∧ k = 128 - entryBits e + Nat.ofDigitChars 10 m 0

end Verif.Spec
