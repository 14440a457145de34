import Verif.Spec

/-!
# Specification vocabulary for ranges

An interval is given by its first and its last number; nothing here mentions the model of the code.
-/

namespace Verif.Spec

/-- `v` lies in the interval. -/
def between (v first last : Nat) : Prop := first ≤ v ∧ v ≤ last

instance (v first last : Nat) : Decidable (between v first last) := inferInstanceAs (Decidable (_ ∧ _))

/-- How many numbers the interval holds. -/
def count (first last : Nat) : Nat := last + 1 - first

/-- The interval is an aligned block of `2^m` numbers. -/
def isBlock (first last m : Nat) : Prop := ∃ k, first = k * 2 ^ m ∧ last = (k + 1) * 2 ^ m - 1

/-- Two non-empty intervals share a number or one ends right before the other. -/
def meetOrTouch (f1 l1 f2 l2 : Nat) : Prop := f1 ≤ l2 + 1 ∧ f2 ≤ l1 + 1

/-- The relations of two non-empty intervals `[f1, l1]` and `[f2, l2]`. -/
inductive Rel
  | equal | before | rightBefore | after | rightAfter | overlapBefore | overlapAfter | contains | inside
  deriving DecidableEq, Repr

/-- What each relation means. -/
def Rel.holds (f1 l1 f2 l2 : Nat) : Rel → Prop
  | .equal => f1 = f2 ∧ l1 = l2
  | .before => l1 + 1 < f2
  | .rightBefore => l1 + 1 = f2
  | .after => l2 + 1 < f1
  | .rightAfter => l2 + 1 = f1
  | .overlapBefore => f1 < f2 ∧ f2 ≤ l1 ∧ l1 < l2
  | .overlapAfter => f2 < f1 ∧ f1 ≤ l2 ∧ l2 < l1
  | .contains => f1 ≤ f2 ∧ l2 ≤ l1 ∧ ¬ (f1 = f2 ∧ l1 = l2)
  | .inside => f2 ≤ f1 ∧ l1 ≤ l2 ∧ ¬ (f1 = f2 ∧ l1 = l2)

end Verif.Spec
