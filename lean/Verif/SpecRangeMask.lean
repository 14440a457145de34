import Verif.SpecMask
import Verif.SpecNetwork
import Verif.SpecRangeText

/-!
# Specification: a mask written after a range
-/

namespace Verif.Spec

/-- The number of bits which may be written after a range: those of its first bound, 128 when it has only a last bound. -/
def rangeBits (e : Str) : (lo : Option Nat) → Nat
  | none => 128
  | some _ => entryBits e

/-- The mask written `m` after the range `e` makes the first `k` bits of 128 count. -/
def RangeMaskOf (e m : Str) (lo : Option Nat) (k : Nat) : Prop :=
  m = [] ∧ k = 128
    ∨ m ≠ [] ∧ (∀ c ∈ m, c.isDigit = true) ∧ Nat.ofDigitChars 10 m 0 ≤ rangeBits e lo ∧ k = 128 - rangeBits e lo + Nat.ofDigitChars 10 m 0

/-- The number is in one of the networks, of this number of bits, of the addresses of the range. -/
def InWidened (x : Nat) (lo hi : Option Nat) (k : Nat) : Prop := ∃ y, InBounds y lo hi ∧ InNetwork x y k

/-- The number is in the range, or in the network of its only bound when this is the first one. -/
def InMasked (x : Nat) (lo hi : Option Nat) (k : Nat) : Prop :=
  match lo, hi with
  | some n, none => InNetwork x n k
  | lo, hi => InBounds x lo hi

end Verif.Spec
