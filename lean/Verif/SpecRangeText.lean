import Verif.SpecAddress

/-!
# Specification: the texts of ranges of addresses
-/

namespace Verif.Spec

/-- The texts of ranges: an address alone, or an address on either side of a dash, or on both. The numbers are the bounds which are written. -/
inductive WrittenRange : (u : Str) → (lo hi : Option Nat) → Prop
  | one {u : Str} {n : Nat} (h : AddressOf u n) : WrittenRange u (some n) none
  | start {u : Str} {n : Nat} (h : AddressOf u n) : WrittenRange (u ++ ['-']) (some n) none
  | stop {u : Str} {n : Nat} (h : AddressOf u n) : WrittenRange ('-' :: u) none (some n)
  | both {u v : Str} {n m : Nat} (h : AddressOf u n) (h' : AddressOf v m) : WrittenRange (u ++ '-' :: v) (some n) (some m)

/-- The number is in the range: between two bounds, or equal to the only one. -/
def InBounds (x : Nat) : (lo hi : Option Nat) → Prop
  | some n, some m => n ≤ x ∧ x ≤ m
  | some n, none => x = n
  | none, some m => x = m
  | none, none => False

/-- There is no number between the two bounds. -/
def NoneBetween (lo hi : Option Nat) : Prop := ∃ n m, lo = some n ∧ hi = some m ∧ m < n

end Verif.Spec
