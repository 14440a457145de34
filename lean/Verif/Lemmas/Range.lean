import Verif.Model.Range
import Verif.Props.AddrMask

/-!
# Lemmas about ranges: the comparisons as numbers, the loops of `to_cidr()`
-/

namespace Verif

open Spec

theorem eq_ip (a b : Addr) : Addr.eq a b = decide (ip a.bytes = ip b.bytes) := by
  rw [Bool.eq_iff_iff, decide_eq_true_iff]; exact (C04_comparisons a b).1

theorem ne_ip (a b : Addr) : Addr.ne a b = decide (ip a.bytes ≠ ip b.bytes) := by
  rw [Bool.eq_iff_iff, decide_eq_true_iff]; exact (C04_comparisons a b).2.1

theorem lt_ip (a b : Addr) : Addr.lt a b = decide (ip a.bytes < ip b.bytes) := by
  rw [Bool.eq_iff_iff, decide_eq_true_iff]; exact (C04_comparisons a b).2.2.1

theorem le_ip (a b : Addr) : Addr.le a b = decide (ip a.bytes ≤ ip b.bytes) := by
  rw [Bool.eq_iff_iff, decide_eq_true_iff]; exact (C04_comparisons a b).2.2.2.1

theorem gt_ip (a b : Addr) : Addr.gt a b = decide (ip b.bytes < ip a.bytes) := by
  rw [Bool.eq_iff_iff, decide_eq_true_iff]; exact (C04_comparisons a b).2.2.2.2.1

theorem ge_ip (a b : Addr) : Addr.ge a b = decide (ip b.bytes ≤ ip a.bytes) := by
  rw [Bool.eq_iff_iff, decide_eq_true_iff]; exact (C04_comparisons a b).2.2.2.2.2

theorem isNext_ip (a b : Addr) : a.isNext b = decide (ip b.bytes = ip a.bytes + 1) := by
  rw [Bool.eq_iff_iff, decide_eq_true_iff]; exact (C07_neighbours a b).1

theorem isPrevious_ip (a b : Addr) : a.isPrevious b = decide (ip b.bytes + 1 = ip a.bytes) := by
  rw [Bool.eq_iff_iff, decide_eq_true_iff]; exact (C07_neighbours a b).2.1

theorem isEmpty_ip (r : Range) : r.isEmpty = decide (r.isRange = true ∧ ip r.hi.bytes < ip r.lo.bytes) := by
  unfold Range.isEmpty
  cases r.isRange <;> simp [gt_ip]

/-! ## The loops of `to_cidr()` -/

theorem twoPow_shl (i : Nat) : (BitVec.twoPow 128 i) <<< 1 = BitVec.twoPow 128 (i + 1) := by
  simp only [BitVec.twoPow_eq, BitVec.shiftLeft_add]

theorem twoPow_ne_zero {i : Nat} (h : i < 128) : BitVec.twoPow 128 i ≠ 0 := by
  intro e
  have := congrArg (fun b => b.getLsbD i) e
  simp [h] at this

theorem and_twoPow_ne {x : BitVec 128} {i : Nat} (h : i < 128) : x &&& BitVec.twoPow 128 i ≠ 0 ↔ x.getLsbD i = true := by
  rw [BitVec.and_twoPow]
  cases x.getLsbD i
  · simp
  · simpa using twoPow_ne_zero h

theorem and_twoPow_congr {x y : BitVec 128} {i : Nat} (h : i < 128) :
    x &&& BitVec.twoPow 128 i = y &&& BitVec.twoPow 128 i ↔ x.getLsbD i = y.getLsbD i := by
  rw [BitVec.and_twoPow, BitVec.and_twoPow]
  have := twoPow_ne_zero h
  cases x.getLsbD i <;> cases y.getLsbD i <;> simp_all [eq_comm]

theorem cidrTail_iff (lo hi : BitVec 128) (n i : Nat) (h : i + n = 128) :
    Range.cidrTail lo hi n (BitVec.twoPow 128 i) = true ↔ ∀ j, i ≤ j → j < 128 → lo.getLsbD j = hi.getLsbD j := by
  induction n generalizing i with
  | zero => simp only [Range.cidrTail]; exact ⟨fun _ j h1 h2 => by omega, fun _ => trivial⟩
  | succ n ih =>
    rw [Range.cidrTail, twoPow_shl]
    have hcond := and_twoPow_congr (x := lo) (y := hi) (i := i) (by omega)
    by_cases hb : lo.getLsbD i = hi.getLsbD i
    · rw [if_neg (fun h => h (hcond.2 hb)), ih (i + 1) (by omega)]
      constructor
      · intro H j h1 h2
        rcases Nat.eq_or_lt_of_le h1 with rfl | h1
        · exact hb
        · exact H j h1 h2
      · exact fun H j h1 h2 => H j (by omega) h2
    · rw [if_pos (fun h => hb (hcond.1 h))]
      constructor
      · intro h; cases h
      · exact fun H => absurd (H i (by omega) (by omega)) hb

theorem cidrLoop_iff (lo hi : BitVec 128) (n i : Nat) (h : i + n = 128) (c d : Int) :
    Range.cidrLoop lo hi n (BitVec.twoPow 128 i) c = some d ↔
      ∃ m, i ≤ m ∧ m ≤ 128 ∧ (∀ j, i ≤ j → j < m → lo.getLsbD j = false ∧ hi.getLsbD j = true)
        ∧ (∀ j, m ≤ j → j < 128 → lo.getLsbD j = hi.getLsbD j) ∧ d = c - (m - i : Nat) := by
  induction n generalizing i c with
  | zero =>
    simp only [Range.cidrLoop, Option.some.injEq]
    constructor
    · rintro rfl
      exact ⟨i, by omega, by omega, fun j _ _ => by omega, fun j _ _ => by omega, by simp⟩
    · rintro ⟨m, h1, h2, _, _, h3⟩
      have : m = i := by omega
      subst this; simp at h3; exact h3.symm
  | succ n ih =>
    have hcond : (lo &&& BitVec.twoPow 128 i ≠ 0 ∨ hi &&& BitVec.twoPow 128 i = 0)
        ↔ (lo.getLsbD i = true ∨ ¬ hi.getLsbD i = true) := by
      rw [← and_twoPow_ne (by omega), ← and_twoPow_ne (by omega)]; simp
    rw [Range.cidrLoop]
    by_cases hb : lo.getLsbD i = true ∨ ¬ hi.getLsbD i = true
    · rw [if_pos (hcond.2 hb)]
      have ht := cidrTail_iff lo hi (n + 1) i h
      constructor
      · intro H
        split at H
        · rename_i htt
          cases H
          exact ⟨i, by omega, by omega, fun j _ _ => by omega, ht.1 htt, by simp⟩
        · cases H
      · rintro ⟨m, h1, h2, h3, h4, h5⟩
        have hm : m = i := by
          rcases Nat.eq_or_lt_of_le h1 with h1 | h1
          · exact h1.symm
          · have := h3 i (by omega) h1
            simp [this] at hb
        subst hm
        rw [if_pos (ht.2 h4), h5]
        simp
    · rw [if_neg (fun h => hb (hcond.1 h)), twoPow_shl, ih (i + 1) (by omega)]
      have hb' : lo.getLsbD i = false ∧ hi.getLsbD i = true := by
        simpa using hb
      constructor
      · rintro ⟨m, h1, h2, h3, h4, h5⟩
        refine ⟨m, by omega, h2, ?_, h4, by omega⟩
        intro j hj1 hj2
        rcases Nat.eq_or_lt_of_le hj1 with rfl | hj1
        · exact hb'
        · exact h3 j hj1 hj2
      · rintro ⟨m, h1, h2, h3, h4, h5⟩
        have : m ≠ i := by
          rintro rfl
          have := h4 m (by omega) (by omega)
          rw [hb'.1, hb'.2] at this; cases this
        exact ⟨m, by omega, h2, fun j hj1 hj2 => h3 j (by omega) hj2, h4, by omega⟩

/-- The bit conditions of the loops describe an aligned block. -/
theorem block_bits (lo hi : BitVec 128) (m : Nat) :
    ((∀ j, j < m → lo.getLsbD j = false ∧ hi.getLsbD j = true) ∧ (∀ j, m ≤ j → j < 128 → lo.getLsbD j = hi.getLsbD j))
      ↔ ∃ k, lo.toNat = k * 2 ^ m ∧ hi.toNat = k * 2 ^ m + (2 ^ m - 1) := by
  have hp : 0 < 2 ^ m := Nat.pow_pos (by decide)
  simp only [← BitVec.testBit_toNat]
  constructor
  · rintro ⟨h1, h2⟩
    have e1 : lo.toNat % 2 ^ m = 0 := by
      apply Nat.eq_of_testBit_eq
      intro i
      rw [Nat.testBit_mod_two_pow, Nat.zero_testBit]
      by_cases hi : i < m
      · simp [(h1 i hi).1]
      · simp [hi]
    have e2 : hi.toNat % 2 ^ m = 2 ^ m - 1 := by
      apply Nat.eq_of_testBit_eq
      intro i
      rw [Nat.testBit_mod_two_pow, Nat.testBit_two_pow_sub_one]
      by_cases hi : i < m
      · simp [(h1 i hi).2]
      · simp [hi]
    have e3 : lo.toNat / 2 ^ m = hi.toNat / 2 ^ m := by
      apply Nat.eq_of_testBit_eq
      intro i
      rw [Nat.testBit_div_two_pow, Nat.testBit_div_two_pow]
      by_cases hlt : i + m < 128
      · exact h2 _ (by omega) hlt
      · rw [Nat.testBit_lt_two_pow, Nat.testBit_lt_two_pow]
        · exact Nat.lt_of_lt_of_le hi.isLt (Nat.pow_le_pow_right (by decide) (by omega))
        · exact Nat.lt_of_lt_of_le lo.isLt (Nat.pow_le_pow_right (by decide) (by omega))
    refine ⟨lo.toNat / 2 ^ m, ?_, ?_⟩
    · have := Nat.div_add_mod lo.toNat (2 ^ m)
      rw [Nat.mul_comm] at this; omega
    · have := Nat.div_add_mod hi.toNat (2 ^ m)
      rw [Nat.mul_comm] at this; rw [e3]; omega
  · rintro ⟨k, h1, h2⟩
    have e1 : lo.toNat % 2 ^ m = 0 := by rw [h1]; simp
    have e2 : hi.toNat % 2 ^ m = 2 ^ m - 1 := by
      rw [h2, Nat.mul_comm, Nat.mul_add_mod, Nat.mod_eq_of_lt (by omega)]
    have e3 : lo.toNat / 2 ^ m = hi.toNat / 2 ^ m := by
      rw [h1, h2, Nat.mul_comm, Nat.mul_add_div hp, Nat.mul_div_cancel_left _ hp, Nat.div_eq_of_lt (by omega)]
      simp
    refine ⟨fun j hj => ⟨?_, ?_⟩, fun j hj1 hj2 => ?_⟩
    · have := congrArg (fun n => n.testBit j) e1
      simpa [Nat.testBit_mod_two_pow, hj] using this
    · have := congrArg (fun n => n.testBit j) e2
      simpa [Nat.testBit_mod_two_pow, Nat.testBit_two_pow_sub_one, hj] using this
    · have := congrArg (fun n => n.testBit (j - m)) e3
      simpa [Nat.testBit_div_two_pow, Nat.sub_add_cancel hj1] using this

theorem cidrLoop_block (lo hi : BitVec 128) (d : Int) :
    Range.cidrLoop lo hi 128 1 128 = some d ↔
      ∃ m k : Nat, m ≤ 128 ∧ lo.toNat = k * 2 ^ m ∧ hi.toNat = k * 2 ^ m + (2 ^ m - 1) ∧ d = 128 - (m : Int) := by
  have h := cidrLoop_iff lo hi 128 0 rfl 128 d
  rw [show BitVec.twoPow 128 0 = 1 by decide] at h
  rw [h]
  constructor
  · rintro ⟨m, _, h2, h3, h4, h5⟩
    obtain ⟨k, hk⟩ := (block_bits lo hi m).1 ⟨fun j hj => h3 j (by omega) hj, h4⟩
    exact ⟨m, k, h2, hk.1, hk.2, by omega⟩
  · rintro ⟨m, k, h2, h3, h4, h5⟩
    obtain ⟨h6, h7⟩ := (block_bits lo hi m).2 ⟨k, h3, h4⟩
    exact ⟨m, by omega, h2, fun j _ hj => h6 j hj, h7, by omega⟩

end Verif
