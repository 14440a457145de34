import Verif.Lemmas.Net

/-!
# The network blocks of the specification against `classifyNat`
-/

namespace Verif

open Spec

theorem inBlock_iff (v base n c : Nat) (hb : base = c * 2 ^ (128 - n)) : inBlock v base n ↔ v / 2 ^ (128 - n) = c := by
  unfold inBlock
  have hp : 0 < 2 ^ (128 - n) := Nat.two_pow_pos _
  rw [hb, Nat.div_eq_iff hp]
  have := Nat.succ_mul c (2 ^ (128 - n))
  omega

/-- An IPv4 block in terms of the two halves of the number. -/
theorem v4Block_iff (v base n c : Nat) (k : Nat) (hk : k ≤ 32) (hn : 128 - n = k) (hb : base = (0xffff * 2 ^ (32 - k) + c) * 2 ^ k)
    (hc : c < 2 ^ (32 - k)) :
    inBlock v base n ↔ v / 2 ^ 32 = 0xffff ∧ v % 2 ^ 32 / 2 ^ k = c := by
  rw [inBlock_iff v base n (0xffff * 2 ^ (32 - k) + c) (by rw [hn, hb]), hn]
  have e : (2 : Nat) ^ 32 = 2 ^ k * 2 ^ (32 - k) := by rw [← Nat.pow_add]; congr 1; omega
  have e1 : v / 2 ^ 32 = v / 2 ^ k / 2 ^ (32 - k) := by rw [Nat.div_div_eq_div_mul, ← e]
  have e2 : v % 2 ^ 32 / 2 ^ k = v / 2 ^ k % 2 ^ (32 - k) := by
    rw [e, Nat.mod_mul_right_div_self]
  rw [e1, e2]
  generalize v / 2 ^ k = w
  have hp : 0 < 2 ^ (32 - k) := Nat.two_pow_pos _
  generalize 2 ^ (32 - k) = d at *
  constructor
  · rintro rfl
    constructor
    · rw [Nat.add_comm, Nat.add_mul_div_right _ _ hp, Nat.div_eq_of_lt hc]
    · rw [Nat.add_comm, Nat.add_mul_mod_self_right, Nat.mod_eq_of_lt hc]
  · rintro ⟨h1, h2⟩
    rw [← Nat.div_add_mod w d, h1, h2, Nat.mul_comm]

theorem top_of_v4 (v : Nat) (h : v / 2 ^ 32 = 0xffff) : v / 2 ^ 112 = 0 := by
  have e : v / 2 ^ 112 = v / 2 ^ 32 / 2 ^ 80 := by rw [Nat.div_div_eq_div_mul]
  rw [e, h]

theorem top_of_small (v : Nat) (h : v ≤ 1) : v / 2 ^ 112 = 0 ∧ v / 2 ^ 32 = 0 :=
  ⟨Nat.div_eq_of_lt (by omega), Nat.div_eq_of_lt (by omega)⟩

theorem isPrivate_iff (v : Nat) : isPrivate v ↔
    (v / 2 ^ 32 = 0xffff ∧ (v % 2 ^ 32 / 2 ^ 24 = 10 ∨ v % 2 ^ 32 / 2 ^ 20 = 0xac1 ∨ v % 2 ^ 32 / 2 ^ 16 = 0xc0a8))
      ∨ v / 2 ^ 112 / 2 ^ 8 = 0xfd := by
  unfold isPrivate
  rw [v4Block_iff v _ 104 10 24 (by decide) rfl (by decide) (by decide), v4Block_iff v _ 108 0xac1 20 (by decide) rfl (by decide) (by decide),
    v4Block_iff v _ 112 0xc0a8 16 (by decide) rfl (by decide) (by decide), inBlock_iff v _ 8 0xfd (by decide),
    Nat.div_div_eq_div_mul, ← Nat.pow_add]
  simp only [← and_or_left, ← or_assoc]

theorem isCarrier_iff (v : Nat) : isCarrier v ↔ v / 2 ^ 32 = 0xffff ∧ v % 2 ^ 32 / 2 ^ 22 = 0x191 :=
  v4Block_iff v _ 106 0x191 22 (by decide) rfl (by decide) (by decide)

theorem ff00_iff (v : Nat) : inBlock v (0xff00 * 2 ^ 112) 8 ↔ v / 2 ^ 112 / 256 = 255 := by
  rw [inBlock_iff v _ 8 0xff (by decide), Nat.div_div_eq_div_mul]

theorem isLinkLocal_iff (v : Nat) : isLinkLocal v ↔
    (v / 2 ^ 32 = 0xffff ∧ v % 2 ^ 32 / 2 ^ 16 = 0xa9fe) ∨ v / 2 ^ 112 / 2 ^ 6 = 0x3fa
      ∨ (v / 2 ^ 112 / 256 = 255 ∧ v / 2 ^ 112 % 16 = 2) := by
  unfold isLinkLocal inScope top16
  rw [v4Block_iff v _ 112 0xa9fe 16 (by decide) rfl (by decide) (by decide), inBlock_iff v _ 10 0x3fa (by decide), ff00_iff,
    Nat.div_div_eq_div_mul _ _ (2 ^ 6)]

theorem isLoopback_iff (v : Nat) : isLoopback v ↔
    (v / 2 ^ 32 = 0xffff ∧ v % 2 ^ 32 / 2 ^ 24 = 127) ∨ v = 1
      ∨ (v / 2 ^ 112 / 256 = 255 ∧ v / 2 ^ 112 % 16 = 1) := by
  unfold isLoopback inScope top16
  rw [v4Block_iff v _ 104 127 24 (by decide) rfl (by decide) (by decide), ff00_iff]

theorem isMulticast_iff (v : Nat) : isMulticast v ↔
    (v / 2 ^ 32 = 0xffff ∧ v % 2 ^ 32 / 2 ^ 28 = 14)
      ∨ (v / 2 ^ 112 / 256 = 255 ∧ v / 2 ^ 112 % 16 ≠ 1 ∧ v / 2 ^ 112 % 16 ≠ 2) := by
  unfold isMulticast inScope top16
  rw [v4Block_iff v _ 100 14 28 (by decide) rfl (by decide) (by decide), ff00_iff]
  omega

theorem isAny_iff (v : Nat) : isAny v ↔ (v / 2 ^ 32 = 0xffff ∧ v % 2 ^ 32 = 0) ∨ v = 0 := by
  unfold isAny v4
  omega

theorem isDocumentation_iff (v : Nat) : isDocumentation v ↔
    (v / 2 ^ 112 = 0x2001 ∧ v / 2 ^ 96 % 2 ^ 16 = 0xdb8) ∨ (v / 2 ^ 112 = 0x3fff ∧ v / 2 ^ 96 % 2 ^ 16 / 2 ^ 12 = 0) := by
  unfold isDocumentation
  rw [inBlock_iff v _ 32 0x20010db8 (by decide), inBlock_iff v _ 20 0x3fff0 (by decide)]
  have e1 : v / 2 ^ 112 = v / 2 ^ 96 / 2 ^ 16 := by rw [Nat.div_div_eq_div_mul]
  have e2 : v / 2 ^ (128 - 20) = v / 2 ^ 96 / 2 ^ 12 := by rw [Nat.div_div_eq_div_mul]
  rw [e1, e2, show 128 - 32 = 96 from rfl]
  generalize v / 2 ^ 96 = q
  omega

theorem classifyNat_priv (v : Nat) : classifyNat v = .priv ↔ isPrivate v := by
  rw [isPrivate_iff]
  have ht := top_of_v4 v
  have hs := top_of_small v
  unfold classifyNat
  generalize v / 2 ^ 96 % 2 ^ 16 = n
  generalize v / 2 ^ 112 = p at *
  generalize v / 2 ^ 32 = t at *
  generalize v % 2 ^ 32 = h at *
  simp only
  repeat' split
  all_goals simp only [reduceCtorEq, true_iff, false_iff]
  all_goals omega

theorem classifyNat_carrier (v : Nat) : classifyNat v = .carrier ↔ isCarrier v := by
  rw [isCarrier_iff]
  have ht := top_of_v4 v
  have hs := top_of_small v
  unfold classifyNat
  generalize v / 2 ^ 96 % 2 ^ 16 = n
  generalize v / 2 ^ 112 = p at *
  generalize v / 2 ^ 32 = t at *
  generalize v % 2 ^ 32 = h at *
  simp only
  repeat' split
  all_goals simp only [reduceCtorEq, true_iff, false_iff]
  all_goals omega

theorem classifyNat_linkLocal (v : Nat) : classifyNat v = .linkLocal ↔ isLinkLocal v := by
  rw [isLinkLocal_iff]
  have ht := top_of_v4 v
  have hs := top_of_small v
  unfold classifyNat
  generalize v / 2 ^ 96 % 2 ^ 16 = n
  generalize v / 2 ^ 112 = p at *
  generalize v / 2 ^ 32 = t at *
  generalize v % 2 ^ 32 = h at *
  simp only
  repeat' split
  all_goals simp only [reduceCtorEq, true_iff, false_iff]
  all_goals omega

theorem classifyNat_loopback (v : Nat) : classifyNat v = .loopback ↔ isLoopback v := by
  rw [isLoopback_iff]
  have ht := top_of_v4 v
  have hs := top_of_small v
  unfold classifyNat
  generalize v / 2 ^ 96 % 2 ^ 16 = n
  generalize v / 2 ^ 112 = p at *
  generalize v / 2 ^ 32 = t at *
  generalize v % 2 ^ 32 = h at *
  simp only
  repeat' split
  all_goals simp only [reduceCtorEq, true_iff, false_iff]
  all_goals omega

theorem classifyNat_multicast (v : Nat) : classifyNat v = .multicast ↔ isMulticast v := by
  rw [isMulticast_iff]
  have ht := top_of_v4 v
  have hs := top_of_small v
  unfold classifyNat
  generalize v / 2 ^ 96 % 2 ^ 16 = n
  generalize v / 2 ^ 112 = p at *
  generalize v / 2 ^ 32 = t at *
  generalize v % 2 ^ 32 = h at *
  simp only
  repeat' split
  all_goals simp only [reduceCtorEq, true_iff, false_iff]
  all_goals omega

theorem classifyNat_any (v : Nat) : classifyNat v = .any ↔ isAny v := by
  rw [isAny_iff]
  have ht := top_of_v4 v
  have hs := top_of_small v
  unfold classifyNat
  generalize v / 2 ^ 96 % 2 ^ 16 = n
  generalize v / 2 ^ 112 = p at *
  generalize v / 2 ^ 32 = t at *
  generalize v % 2 ^ 32 = h at *
  simp only
  repeat' split
  all_goals simp only [reduceCtorEq, true_iff, false_iff]
  all_goals omega

theorem classifyNat_documentation (v : Nat) : classifyNat v = .documentation ↔ isDocumentation v := by
  rw [isDocumentation_iff]
  have ht := top_of_v4 v
  have hs := top_of_small v
  unfold classifyNat
  generalize v / 2 ^ 96 % 2 ^ 16 = n
  generalize v / 2 ^ 112 = p at *
  generalize v / 2 ^ 32 = t at *
  generalize v % 2 ^ 32 = h at *
  simp only
  repeat' split
  all_goals simp only [reduceCtorEq, true_iff, false_iff]
  all_goals omega

theorem classifyNat_ne_undefined (v : Nat) : classifyNat v ≠ .undefined := by
  unfold classifyNat
  simp only
  repeat' split
  all_goals simp

theorem classify_ne_undefined (b : Bytes16) (f : Bool) : Addr.classify b f ≠ .undefined := by
  unfold Addr.classify
  simp only
  repeat' split
  all_goals simp

end Verif
