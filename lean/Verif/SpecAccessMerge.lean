import Verif.SpecAccess
import Verif.SpecRange

/-!
# Specification: lists of networks and ranges which are merged

An entry is given by numbers: the first and the last one it names, how many of the 128 bits of the first one count, and whether two numbers are
written. A network names only one number: the one written.
-/

namespace Verif.Spec

structure AccessItem where
  lo : Nat
  hi : Nat
  bits : Nat
  span : Bool

/-- The entry of a text: a network, a range with one bound, or a range with two bounds which has at least one address. -/
inductive ItemOf : (t : Str) → AccessItem → Prop
  | network {t : Str} {n k : Nat} (h : Network t n k) : ItemOf t ⟨n, n, k, false⟩
  | start {t u : Str} {n : Nat} (he : Entry False t u []) (h : WrittenRange u (some n) none) : ItemOf t ⟨n, n, 128, false⟩
  | stop {t u : Str} {n : Nat} (he : Entry False t u []) (h : WrittenRange u none (some n)) : ItemOf t ⟨n, n, 128, false⟩
  | span {t u : Str} {n m : Nat} (he : Entry False t u []) (h : WrittenRange u (some n) (some m)) (hle : n ≤ m) : ItemOf t ⟨n, m, 128, true⟩

/-- A text of a range between two bounds in the wrong order. -/
def WrongWay (t : Str) : Prop := ∃ u lo hi, Entry False t u [] ∧ WrittenRange u lo hi ∧ NoneBetween lo hi

/-- The number is named by an entry or is between two which are. -/
def Covered (Q : List AccessItem) (v : Nat) : Prop := ∃ q ∈ Q, between v q.lo q.hi

/-- One number, and no entry overlaps or touches it except the same number again. -/
def Alone (Q : List AccessItem) (q : AccessItem) : Prop :=
  q.span = false ∧ ∀ s ∈ Q, meetOrTouch s.lo s.hi q.lo q.hi → s.span = false ∧ s.lo = q.lo

/-- What is left of the entries: what they cover, and the networks of the numbers which are alone. -/
def LeftOver (Q : List AccessItem) (x : Nat) : Prop := ∃ q ∈ Q, between x q.lo q.hi ∨ (Alone Q q ∧ InNetwork x q.lo q.bits)

/-- The numbers from `a` to `v` are all covered, and the one before `a` is not. -/
def StartOf (Q : List AccessItem) (a v : Nat) : Prop := a ≤ v ∧ (∀ w, between w a v → Covered Q w) ∧ ∀ b, b + 1 = a → ¬ Covered Q b

/-- Two entries are joined to a run of numbers which starts with an IPv4 address only if both have at least 96 bits. -/
def Joinable (Q : List AccessItem) : Prop :=
  Q.Pairwise fun q s => ∀ a, isV4 a → StartOf Q a q.lo → StartOf Q a s.lo → 96 ≤ q.bits ∧ 96 ≤ s.bits

/-- The number is in the network or in the range of an entry. -/
def InItem (x : Nat) (q : AccessItem) : Prop := if q.span then between x q.lo q.hi else InNetwork x q.lo q.bits

end Verif.Spec
