import Verif.Lemmas.Value

/-!
# Masks
-/

namespace Verif

open Spec

theorem fillMask_zero (c : Nat) : Addr.fillMask c 0 = List.replicate c 0 := by
  induction c with
  | zero => rfl
  | succ c ih => simp [Addr.fillMask, ih, List.replicate_succ]

theorem value_replicate_zero (c : Nat) : value (List.replicate c (0 : Byte)) = 0 := by
  induction c with
  | zero => rfl
  | succ c ih =>
    rw [List.replicate_succ, value_cons, ih]; simp

theorem partialByte (n : Nat) (h : n < 8) :
    (((0xFF00 : BitVec 16) >>> n).setWidth 8).toNat = 256 - 2 ^ (8 - n) := by
  have : n = 0 ∨ n = 1 ∨ n = 2 ∨ n = 3 ∨ n = 4 ∨ n = 5 ∨ n = 6 ∨ n = 7 := by omega
  rcases this with rfl | rfl | rfl | rfl | rfl | rfl | rfl | rfl <;> rfl

theorem pow256 (c : Nat) : 256 ^ c = 2 ^ (8 * c) := by
  rw [Nat.pow_mul]

theorem value_fillMask (c n : Nat) (h : n ≤ 8 * c) :
    value (Addr.fillMask c n) = 256 ^ c - 2 ^ (8 * c - n) := by
  induction c generalizing n with
  | zero =>
    have : n = 0 := by omega
    subst this; rfl
  | succ c ih =>
    have hp : 256 ^ (c + 1) = 256 * 256 ^ c := by rw [Nat.pow_succ, Nat.mul_comm]
    unfold Addr.fillMask
    split
    · rename_i h8
      rw [value_cons, Addr.fillMask_length, ih _ (by omega), hp]
      have e : 8 * (c + 1) - n = 8 * c - (n - 8) := by omega
      rw [e]
      have hle : 2 ^ (8 * c - (n - 8)) ≤ 256 ^ c := by
        rw [pow256]; exact Nat.pow_le_pow_right (by decide) (by omega)
      have : (0xFF : Byte).toNat = 255 := rfl
      rw [this]
      omega
    · split
      · rw [value_cons, Addr.fillMask_length, partialByte n (by omega), fillMask_zero, value_replicate_zero,
          Nat.sub_mul, hp]
        have : 2 ^ (8 - n) * 256 ^ c = 2 ^ (8 * (c + 1) - n) := by
          rw [pow256, ← Nat.pow_add]; congr 1; omega
        omega
      · rename_i h1 h2
        have : n = 0 := by omega
        subst this
        rw [value_cons, fillMask_zero, value_replicate_zero, Nat.sub_zero, ← pow256]
        simp

/-- The mask written by `set_mask_count(n)`. -/
def prefixBytes (n : Nat) : Bytes16 := ⟨(Addr.fillMask 16 n).toArray, by simp [Addr.fillMask_length]⟩

theorem ip_prefixBytes (n : Nat) (h : n ≤ 128) : ip (prefixBytes n) = prefixMask n := by
  have := value_fillMask 16 n (by omega)
  simpa [ip, prefixBytes, prefixMask] using this

theorem prefixMask_inj {n m : Nat} (hn : n ≤ 128) (hm : m ≤ 128) (h : prefixMask n = prefixMask m) : n = m := by
  unfold prefixMask at h
  have h1 : 2 ^ (128 - n) ≤ 2 ^ 128 := Nat.pow_le_pow_right (by decide) (by omega)
  have h2 : 2 ^ (128 - m) ≤ 2 ^ 128 := Nat.pow_le_pow_right (by decide) (by omega)
  have h3 : 2 ^ (128 - n) = 2 ^ (128 - m) := by omega
  have := (Nat.pow_right_inj (by decide)).mp h3
  omega

/-! ## The loop of `get_mask_size()` -/

theorem maskSizeLoop_true (l : List Byte) (c : Int) :
    (Addr.maskSizeLoop l true c = -1 ∧ l ≠ List.replicate l.length 0)
      ∨ (Addr.maskSizeLoop l true c = c ∧ l = List.replicate l.length 0) := by
  induction l with
  | nil => right; simp [Addr.maskSizeLoop]
  | cons b l ih =>
    rw [Addr.maskSizeLoop]
    by_cases hb : b = 0
    · subst hb
      rw [if_neg (by simp)]
      simpa [List.replicate_succ] using ih
    · rw [if_pos hb]
      left
      refine ⟨rfl, ?_⟩
      intro h
      simp only [List.length_cons, List.replicate_succ, List.cons.injEq] at h
      exact hb h.1

theorem partial_cases {b : Byte} {k : Nat} (hk : k < 8) (h : b = ((0xFF00 : BitVec 16) >>> k).setWidth 8) :
    (k = 0 ∧ b = 0) ∨ (k = 1 ∧ b = 0x80) ∨ (k = 2 ∧ b = 0xC0) ∨ (k = 3 ∧ b = 0xE0) ∨ (k = 4 ∧ b = 0xF0)
      ∨ (k = 5 ∧ b = 0xF8) ∨ (k = 6 ∧ b = 0xFC) ∨ (k = 7 ∧ b = 0xFE) := by
  have : k = 0 ∨ k = 1 ∨ k = 2 ∨ k = 3 ∨ k = 4 ∨ k = 5 ∨ k = 6 ∨ k = 7 := by omega
  rcases this with rfl | rfl | rfl | rfl | rfl | rfl | rfl | rfl <;> (subst h; decide)

/-- A byte which ends the run of ones of a CIDR mask, followed by zeros. -/
theorem fillMask_partial (c k : Nat) (hk : k < 8) :
    Addr.fillMask (c + 1) k = ((0xFF00 : BitVec 16) >>> k).setWidth 8 :: List.replicate c 0 := by
  rw [Addr.fillMask, if_neg (by omega)]
  split
  · rw [fillMask_zero]
  · have : k = 0 := by omega
    subst this
    rw [fillMask_zero]; rfl

theorem maskSizeLoop_false (l : List Byte) (c : Int) :
    (Addr.maskSizeLoop l false c = -1 ∧ ∀ n, n ≤ 8 * l.length → l ≠ Addr.fillMask l.length n)
      ∨ (∃ n : Nat, n ≤ 8 * l.length ∧ l = Addr.fillMask l.length n ∧ Addr.maskSizeLoop l false c = c + n) := by
  induction l generalizing c with
  | nil => right; exact ⟨0, by simp, rfl, by simp [Addr.maskSizeLoop]⟩
  | cons b l ih =>
    have step : ∀ k : Nat, k < 8 → b = ((0xFF00 : BitVec 16) >>> k).setWidth 8 →
        Addr.maskSizeLoop (b :: l) false c = Addr.maskSizeLoop l true (c + k) →
        (Addr.maskSizeLoop (b :: l) false c = -1
            ∧ ∀ n, n ≤ 8 * (b :: l).length → (b :: l) ≠ Addr.fillMask (b :: l).length n)
          ∨ (∃ n : Nat, n ≤ 8 * (b :: l).length ∧ (b :: l) = Addr.fillMask (b :: l).length n
            ∧ Addr.maskSizeLoop (b :: l) false c = c + n) := by
      intro k hk hb hloop
      rcases maskSizeLoop_true l (c + k) with ⟨h1, h2⟩ | ⟨h1, h2⟩
      · left
        refine ⟨by rw [hloop, h1], ?_⟩
        intro n _ h
        rw [List.length_cons] at h
        by_cases h8 : 8 ≤ n
        · rw [Addr.fillMask, if_pos h8, List.cons.injEq] at h
          have := h.1
          rcases partial_cases hk hb with ⟨_, h⟩ | ⟨_, h⟩ | ⟨_, h⟩ | ⟨_, h⟩ | ⟨_, h⟩ | ⟨_, h⟩ | ⟨_, h⟩ | ⟨_, h⟩ <;>
            (rw [h] at this; revert this; decide)
        · rw [fillMask_partial _ _ (by omega), List.cons.injEq] at h
          exact h2 h.2
      · right
        refine ⟨k, by simp only [List.length_cons]; omega, ?_, by rw [hloop, h1]⟩
        rw [List.length_cons, fillMask_partial _ _ hk, ← hb, ← h2]
    by_cases hff : b = 0xFF
    · subst hff
      have hloop : Addr.maskSizeLoop (0xFF :: l) false c = Addr.maskSizeLoop l false (c + 8) := by
        rw [Addr.maskSizeLoop, if_pos rfl]
      rw [hloop]
      rcases ih (c + 8) with ⟨h1, h2⟩ | ⟨n, h1, h2, h3⟩
      · left
        refine ⟨h1, ?_⟩
        intro n hn h
        rw [List.length_cons] at h hn
        by_cases h8 : 8 ≤ n
        · rw [Addr.fillMask, if_pos h8, List.cons.injEq] at h
          exact h2 (n - 8) (by omega) h.2
        · rw [fillMask_partial _ _ (by omega), List.cons.injEq] at h
          have := h.1
          rcases partial_cases (by omega) h.1 with ⟨_, h⟩ | ⟨_, h⟩ | ⟨_, h⟩ | ⟨_, h⟩ | ⟨_, h⟩ | ⟨_, h⟩ | ⟨_, h⟩ | ⟨_, h⟩ <;>
            (revert h; decide)
      · right
        refine ⟨n + 8, by simp only [List.length_cons]; omega, ?_, by rw [h3]; omega⟩
        rw [List.length_cons, Addr.fillMask, if_pos (by omega), Nat.add_sub_cancel, ← h2]
    by_cases hfe : b = 0xFE
    · exact step 7 (by omega) hfe (by subst hfe; rfl)
    by_cases hfc : b = 0xFC
    · exact step 6 (by omega) hfc (by subst hfc; rfl)
    by_cases hf8 : b = 0xF8
    · exact step 5 (by omega) hf8 (by subst hf8; rfl)
    by_cases hf0 : b = 0xF0
    · exact step 4 (by omega) hf0 (by subst hf0; rfl)
    by_cases he0 : b = 0xE0
    · exact step 3 (by omega) he0 (by subst he0; rfl)
    by_cases hc0 : b = 0xC0
    · exact step 2 (by omega) hc0 (by subst hc0; rfl)
    by_cases h80 : b = 0x80
    · exact step 1 (by omega) h80 (by subst h80; rfl)
    by_cases h00 : b = 0x00
    · exact step 0 (by omega) h00 (by subst h00; simp [Addr.maskSizeLoop])
    · left
      refine ⟨by simp only [Addr.maskSizeLoop, if_neg hff, if_neg hfe, if_neg hfc, if_neg hf8, if_neg hf0, if_neg he0,
        if_neg hc0, if_neg h80, if_neg h00], ?_⟩
      intro n _ h
      rw [List.length_cons] at h
      by_cases h8 : 8 ≤ n
      · rw [Addr.fillMask, if_pos h8, List.cons.injEq] at h
        exact hff h.1
      · rw [fillMask_partial _ _ (by omega), List.cons.injEq] at h
        rcases partial_cases (by omega) h.1 with ⟨_, h⟩ | ⟨_, h⟩ | ⟨_, h⟩ | ⟨_, h⟩ | ⟨_, h⟩ | ⟨_, h⟩ | ⟨_, h⟩ | ⟨_, h⟩ <;>
          contradiction

/-- `get_mask_size()` either refuses a mask which is not of the CIDR form or returns the size of the mask. -/
theorem getMaskSize_cases (a : Addr) :
    (a.getMaskSize = -1 ∧ ∀ n, n ≤ 128 → ip a.mask ≠ prefixMask n)
      ∨ (∃ n : Nat, n ≤ 128 ∧ ip a.mask = prefixMask n ∧ a.getMaskSize = n) := by
  have hlen : a.mask.toList.length = 16 := by simp
  have conv : ∀ n, n ≤ 128 → (ip a.mask = prefixMask n ↔ a.mask.toList = Addr.fillMask 16 n) := by
    intro n hn
    constructor
    · intro h
      rw [← ip_prefixBytes n hn] at h
      rw [ip_inj h]; simp [prefixBytes]
    · intro h
      rw [← ip_prefixBytes n hn, ip, h]; simp [ip, prefixBytes]
  unfold Addr.getMaskSize
  rcases maskSizeLoop_false a.mask.toList 0 with ⟨h1, h2⟩ | ⟨n, h1, h2, h3⟩
  · left
    refine ⟨h1, fun n hn h => ?_⟩
    rw [hlen] at h2
    exact h2 n (by omega) ((conv n hn).mp h)
  · right
    rw [hlen] at h1 h2
    exact ⟨n, by omega, (conv n (by omega)).mpr h2, by rw [h3]; omega⟩

/-! ## Prefix masks as words -/

theorem allOnes_shl_toNat (k : Nat) (h : k ≤ 128) : (BitVec.allOnes 128 <<< k).toNat = 2 ^ 128 - 2 ^ k := by
  rw [BitVec.toNat_shiftLeft, BitVec.toNat_allOnes, Nat.shiftLeft_eq, Nat.sub_mul, Nat.one_mul]
  have hk : 2 ^ k ≤ 2 ^ 128 := Nat.pow_le_pow_right (by decide) h
  have hk0 : 0 < 2 ^ k := Nat.pow_pos (by decide)
  have h2 : 2 ^ 128 * 2 ^ k - 2 ^ k = (2 ^ 128 - 2 ^ k) + 2 ^ 128 * (2 ^ k - 1) := by
    rw [Nat.mul_sub, Nat.mul_one]
    have : 2 ^ 128 ≤ 2 ^ 128 * 2 ^ k := Nat.le_mul_of_pos_right _ hk0
    omega
  rw [h2, Nat.add_mul_mod_self_left, Nat.mod_eq_of_lt (by omega)]

theorem word_prefix {m : Bytes16} {n : Nat} (hn : n ≤ 128) (h : ip m = prefixMask n) :
    word m = BitVec.allOnes 128 <<< (128 - n) := by
  apply BitVec.eq_of_toNat_eq
  rw [word_toNat, h, allOnes_shl_toNat _ (by omega)]
  rfl

theorem and_hi_toNat {w : Nat} (x : BitVec w) (k : Nat) :
    (x &&& BitVec.allOnes w <<< k).toNat = x.toNat / 2 ^ k * 2 ^ k := by
  have e : x &&& BitVec.allOnes w <<< k = (x >>> k) <<< k := by
    ext i hi
    rw [BitVec.getElem_and, BitVec.getElem_shiftLeft, BitVec.getElem_shiftLeft]
    by_cases hik : i < k
    · simp [hik]
    · rw [BitVec.getElem_allOnes, BitVec.getElem_ushiftRight, show k + (i - k) = i by omega,
        BitVec.getLsbD_eq_getElem hi]
      simp [hik]
  rw [e, BitVec.toNat_shiftLeft, BitVec.toNat_ushiftRight, Nat.shiftLeft_eq, Nat.shiftRight_eq_div_pow,
    Nat.mod_eq_of_lt]
  exact Nat.lt_of_le_of_lt (Nat.div_mul_le_self _ _) x.isLt

theorem or_not_prefix_toNat (x : BitVec 128) (k : Nat) (h : k ≤ 128) :
    (x ||| ~~~(BitVec.allOnes 128 <<< k)).toNat = x.toNat / 2 ^ k * 2 ^ k + (2 ^ k - 1) := by
  have e : x ||| ~~~(BitVec.allOnes 128 <<< k) = (x &&& BitVec.allOnes 128 <<< k) ||| ~~~(BitVec.allOnes 128 <<< k) := by
    ext i hi
    simp only [BitVec.getElem_or, BitVec.getElem_not, BitVec.getElem_and]
    cases x[i] <;> cases (BitVec.allOnes 128 <<< k)[i] <;> rfl
  have d : (x &&& BitVec.allOnes 128 <<< k) &&& ~~~(BitVec.allOnes 128 <<< k) = 0#128 := by
    ext i hi
    simp only [BitVec.getElem_not, BitVec.getElem_and, BitVec.getElem_zero]
    cases x[i] <;> cases (BitVec.allOnes 128 <<< k)[i] <;> rfl
  rw [e, ← BitVec.add_eq_or_of_and_eq_zero _ _ d, BitVec.toNat_add, and_hi_toNat, BitVec.toNat_not,
    allOnes_shl_toNat k h]
  have hk : 2 ^ k ≤ 2 ^ 128 := Nat.pow_le_pow_right (by decide) h
  have hk0 : 0 < 2 ^ k := Nat.pow_pos (by decide)
  have hx := x.isLt
  have hd : x.toNat / 2 ^ k < 2 ^ (128 - k) := by
    rw [Nat.div_lt_iff_lt_mul hk0, ← Nat.pow_add, Nat.sub_add_cancel h]; exact hx
  have hm : (x.toNat / 2 ^ k + 1) * 2 ^ k ≤ 2 ^ (128 - k) * 2 ^ k := Nat.mul_le_mul_right _ hd
  rw [← Nat.pow_add, Nat.sub_add_cancel h, Nat.add_mul, Nat.one_mul] at hm
  rw [show 2 ^ 128 - 1 - (2 ^ 128 - 2 ^ k) = 2 ^ k - 1 by omega]
  exact Nat.mod_eq_of_lt (by omega)

/-! ## `apply_mask()` -/

theorem word_applyMask_false (a : Addr) : word (a.applyMask false).bytes = word a.bytes &&& word a.mask := by
  rw [← word_and]; rfl

theorem word_applyMask_true (a : Addr) : word (a.applyMask true).bytes = word a.bytes ||| ~~~ word a.mask := by
  rw [← word_not, ← word_or]
  congr 1
  ext i hi : 1
  simp [Addr.applyMask, Addr.setBytes, Addr.bytes]

theorem ip_applyMask_false {a : Addr} {n : Nat} (hn : n ≤ 128) (h : ip a.mask = prefixMask n) :
    ip (a.applyMask false).bytes = blockFirst (ip a.bytes) n := by
  rw [← word_toNat, word_applyMask_false, word_prefix hn h, and_hi_toNat, word_toNat]; rfl

theorem ip_applyMask_true {a : Addr} {n : Nat} (hn : n ≤ 128) (h : ip a.mask = prefixMask n) :
    ip (a.applyMask true).bytes = blockLast (ip a.bytes) n := by
  rw [← word_toNat, word_applyMask_true, word_prefix hn h, or_not_prefix_toNat _ _ (by omega), word_toNat]; rfl

/-! ## `match()` -/

theorem matchAddr_iff_word (a b : Addr) :
    a.matchAddr b false = true ↔ word a.bytes &&& word a.mask = word b.bytes &&& word a.mask := by
  rw [← word_and, ← word_and]
  constructor
  · intro h
    congr 1
    simp only [Addr.matchAddr, Bool.false_and, Bool.false_eq_true, if_false, List.all_eq_true, List.mem_range, beq_iff_eq] at h
    ext i hi : 1
    have := h i hi
    simpa [hi] using this
  · intro h
    have h := word_inj h
    simp only [Addr.matchAddr, Bool.false_and, Bool.false_eq_true, if_false, List.all_eq_true, List.mem_range, beq_iff_eq]
    intro i hi
    have := congrArg (fun v : Bytes16 => v[i]) h
    simpa [hi] using this

theorem div_eq_iff_between (x y k : Nat) :
    x / 2 ^ k = y / 2 ^ k ↔ x / 2 ^ k * 2 ^ k ≤ y ∧ y ≤ x / 2 ^ k * 2 ^ k + (2 ^ k - 1) := by
  have hk0 : 0 < 2 ^ k := Nat.pow_pos (by decide)
  rw [eq_comm, Nat.div_eq_iff hk0]
  omega

end Verif
