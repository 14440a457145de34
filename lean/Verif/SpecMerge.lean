import Verif.SpecNetwork
import Verif.SpecRange

/-!
# Specification: lists of networks which are merged

A network is a pair: the number written, and how many of its 128 bits count.
-/

namespace Verif.Spec

/-- A number right before or right after `n` is written. -/
def NextTo (Q : List (Nat × Nat)) (n : Nat) : Prop := ∃ q ∈ Q, q.1 = n + 1 ∨ q.1 + 1 = n

/-- What is left of the networks: each number written, and the network of a number only if no number next to it is written. -/
def LeftOf (Q : List (Nat × Nat)) (x : Nat) : Prop := ∃ q ∈ Q, x = q.1 ∨ (¬ NextTo Q q.1 ∧ InNetwork x q.1 q.2)

/-- Two networks (or the same one twice) make one range which starts with an IPv4 address, `a`, and one of them has less than 96 bits. -/
def Clash (Q : List (Nat × Nat)) : Prop :=
  ∃ a ∈ Q, isV4 a.1 ∧ (∀ q ∈ Q, q.1 + 1 ≠ a.1)
    ∧ ∃ b ∈ Q, a.1 ≤ b.1 ∧ (∀ v, between v a.1 b.1 → ∃ q ∈ Q, q.1 = v) ∧ (a.2 < 96 ∨ b.2 < 96) ∧ (a ≠ b ∨ 2 ≤ Q.count a)

end Verif.Spec
