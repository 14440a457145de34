import Verif.Spec
import Verif.Model.Addr

/-!
# Bytes, numbers and 128 bit words
-/

namespace Verif

open Spec

/-! ## Base 256 -/

theorem foldl_value (l : List Byte) (n : Nat) :
    l.foldl (fun n b => 256 * n + b.toNat) n = n * 256 ^ l.length + value l := by
  induction l generalizing n with
  | nil => simp [value]
  | cons b l ih =>
    simp only [List.foldl_cons, List.length_cons, value]
    rw [ih, ih (256 * 0 + b.toNat)]
    rw [Nat.pow_succ, Nat.add_mul, Nat.add_mul]
    have : 256 * n * 256 ^ l.length = n * (256 ^ l.length * 256) := by
      rw [Nat.mul_comm 256 n, Nat.mul_assoc, Nat.mul_comm 256 (256 ^ _)]
    omega

@[simp] theorem value_nil : value [] = 0 := rfl

theorem value_cons (b : Byte) (l : List Byte) : value (b :: l) = b.toNat * 256 ^ l.length + value l := by
  have := foldl_value l (256 * 0 + b.toNat)
  simp only [value, List.foldl_cons]
  rw [this]; simp [value]

theorem value_append (l m : List Byte) : value (l ++ m) = value l * 256 ^ m.length + value m := by
  simp only [value, List.foldl_append]
  rw [foldl_value]; rfl

theorem value_lt (l : List Byte) : value l < 256 ^ l.length := by
  induction l with
  | nil => simp
  | cons b l ih =>
    rw [value_cons, List.length_cons, Nat.pow_succ]
    have hb : b.toNat ≤ 255 := by have := b.isLt; omega
    have := Nat.mul_le_mul_right (256 ^ l.length) hb
    omega

theorem value_inj : ∀ {l m : List Byte}, l.length = m.length → value l = value m → l = m
  | [], [], _, _ => rfl
  | x :: l, y :: m, hl, hv => by
    simp only [List.length_cons, Nat.add_right_cancel_iff] at hl
    rw [value_cons, value_cons, ← hl] at hv
    have h1 := value_lt l
    have h2 := value_lt m
    rw [← hl] at h2
    have hx : x.toNat = y.toNat := by
      have e1 : (x.toNat * 256 ^ l.length + value l) / 256 ^ l.length = x.toNat := by
        rw [Nat.mul_comm, Nat.mul_add_div (by exact Nat.pow_pos (by decide)), Nat.div_eq_of_lt h1, Nat.add_zero]
      have e2 : (y.toNat * 256 ^ l.length + value m) / 256 ^ l.length = y.toNat := by
        rw [Nat.mul_comm, Nat.mul_add_div (by exact Nat.pow_pos (by decide)), Nat.div_eq_of_lt h2, Nat.add_zero]
      rw [← e1, ← e2, hv]
    rw [hx] at hv
    have := value_inj hl (Nat.add_left_cancel hv)
    rw [this, BitVec.eq_of_toNat_eq hx]

/-- `memcmp()` compares numbers. -/
theorem memcmp_eq : ∀ {l m : List Byte}, l.length = m.length →
    Addr.memcmp l m = if value l < value m then -1 else if value l = value m then 0 else 1
  | [], [], _ => by simp [Addr.memcmp]
  | x :: l, y :: m, hl => by
    simp only [List.length_cons, Nat.add_right_cancel_iff] at hl
    have ih := memcmp_eq hl
    have h1 := value_lt l
    have h2 := value_lt m
    rw [← hl] at h2
    rw [value_cons, value_cons, ← hl, Addr.memcmp, ih]
    by_cases hxy : x = y
    · subst hxy; simp
    · have hne : x.toNat ≠ y.toNat := fun h => hxy (BitVec.eq_of_toNat_eq h)
      rw [if_neg hxy]
      by_cases hlt : x.toNat < y.toNat
      · have := Nat.mul_le_mul_right (256 ^ l.length) (Nat.succ_le_of_lt hlt)
        rw [Nat.succ_mul] at this
        rw [if_pos hlt, if_pos (by omega)]
      · have := Nat.mul_le_mul_right (256 ^ l.length) (show y.toNat + 1 ≤ x.toNat by omega)
        rw [Nat.add_mul, Nat.one_mul] at this
        rw [if_neg hlt, if_neg (by omega), if_neg (by omega)]

/-! ## The loops of `ip_to_uint128()` and `ip_from_uint128()` -/

/-- The loop of `ip_to_uint128()` on any list of bytes. -/
def toU (r : BitVec 128) (l : List Byte) : BitVec 128 :=
  l.foldl (fun r b => (r <<< 8) ||| b.setWidth 128) r

theorem shl8_or (r : BitVec 128) (b : Byte) :
    ((r <<< 8) ||| b.setWidth 128).toNat = (256 * r.toNat + b.toNat) % 2 ^ 128 := by
  have hb := b.isLt
  have hdis : (r <<< 8) &&& b.setWidth 128 = 0#128 := by
    ext i hi
    simp
    intro h1 _
    exact BitVec.getLsbD_of_ge _ _ h1
  rw [← BitVec.add_eq_or_of_and_eq_zero _ _ hdis, BitVec.toNat_add, BitVec.toNat_shiftLeft, BitVec.toNat_setWidth,
    Nat.shiftLeft_eq, Nat.mod_add_mod, Nat.mod_eq_of_lt (a := b.toNat) (by omega)]
  omega

theorem toU_toNat (l : List Byte) (r : BitVec 128) :
    (toU r l).toNat = (r.toNat * 256 ^ l.length + value l) % 2 ^ 128 := by
  induction l generalizing r with
  | nil => simp [toU, Nat.mod_eq_of_lt r.isLt]
  | cons b l ih =>
    have : toU r (b :: l) = toU ((r <<< 8) ||| b.setWidth 128) l := rfl
    rw [this, ih, shl8_or, value_cons, List.length_cons, Nat.pow_succ (n := 256)]
    rw [Nat.add_mod, Nat.mod_mul_mod, ← Nat.add_mod, Nat.add_mul, Nat.mul_comm (256 ^ _) 256, ← Nat.mul_assoc,
      Nat.mul_comm r.toNat 256, Nat.add_assoc]

theorem Bytes16.length (a : Bytes16) : a.toList.length = 16 := by simp

theorem ip_lt (a : Bytes16) : ip a < 2 ^ 128 := by
  have := value_lt a.toList
  simp only [Vector.length_toList] at this
  exact this

theorem ip_le (a : Bytes16) : ip a ≤ maxIp := by
  have := ip_lt a
  unfold maxIp; omega

theorem ip_inj {a b : Bytes16} (h : ip a = ip b) : a = b := by
  have := value_inj (by simp) h
  exact Vector.toList_inj.mp this

theorem ipToUint128_toNat (a : Addr) : a.ipToUint128.toNat = ip a.bytes := by
  have h := toU_toNat a.bytes.toList 0
  have hlt := ip_lt a.bytes
  unfold Addr.ipToUint128
  unfold toU at h
  rw [h]
  have h0 : (0 : BitVec 128).toNat = 0 := rfl
  rw [h0, Nat.zero_mul, Nat.zero_add]
  exact Nat.mod_eq_of_lt hlt

theorem ipToUint128_eq (a : Addr) : a.ipToUint128 = toU 0 a.bytes.toList := rfl

theorem value_fromUintLoop (n : Nat) (u : BitVec 128) :
    value (Addr.fromUintLoop n u) = u.toNat % 256 ^ n := by
  induction n generalizing u with
  | zero => simp [Addr.fromUintLoop, Nat.mod_one]
  | succ n ih =>
    rw [Addr.fromUintLoop, value_append, ih]
    simp only [List.length_singleton, BitVec.toNat_ushiftRight, value_cons, value_nil, List.length_nil,
      BitVec.toNat_setWidth, Nat.shiftRight_eq_div_pow, Nat.pow_zero, Nat.mul_one, Nat.add_zero, Nat.pow_one]
    rw [Nat.pow_succ (n := 256), Nat.mul_comm (256 ^ n) 256, Nat.mod_mul, show (2 : Nat) ^ 8 = 256 from rfl]
    omega

theorem ip_fromUint (a : Addr) (u : BitVec 128) : ip (a.ipFromUint128 u).bytes = u.toNat := by
  have h := value_fromUintLoop 16 u
  have : u.toNat % 256 ^ 16 = u.toNat := Nat.mod_eq_of_lt (by have := u.isLt; omega)
  rw [this] at h
  simpa [ip, Addr.ipFromUint128, Addr.setBytes, Addr.bytes] using h

/-! ## Bit-wise operations -/

theorem toU_and (l m : List Byte) (r s : BitVec 128) :
    l.length = m.length → toU (r &&& s) (List.zipWith (· &&& ·) l m) = toU r l &&& toU s m := by
  induction l generalizing m r s with
  | nil => cases m <;> simp [toU]
  | cons x l ih =>
    cases m with
    | nil => simp
    | cons y m =>
      intro h
      simp only [List.length_cons, Nat.add_right_cancel_iff] at h
      have e : ((r &&& s) <<< 8) ||| (x &&& y).setWidth 128
          = ((r <<< 8) ||| x.setWidth 128) &&& ((s <<< 8) ||| y.setWidth 128) := by
        ext i hi
        simp
        by_cases hi8 : i < 8
        · simp [hi8]
        · simp [hi8, BitVec.getLsbD_of_ge x i (by omega), BitVec.getLsbD_of_ge y i (by omega)]
      have := ih m ((r <<< 8) ||| x.setWidth 128) ((s <<< 8) ||| y.setWidth 128) h
      rw [← e] at this
      exact this

theorem toU_or (l m : List Byte) (r s : BitVec 128) :
    l.length = m.length → toU (r ||| s) (List.zipWith (· ||| ·) l m) = toU r l ||| toU s m := by
  induction l generalizing m r s with
  | nil => cases m <;> simp [toU]
  | cons x l ih =>
    cases m with
    | nil => simp
    | cons y m =>
      intro h
      simp only [List.length_cons, Nat.add_right_cancel_iff] at h
      have e : ((r ||| s) <<< 8) ||| (x ||| y).setWidth 128
          = ((r <<< 8) ||| x.setWidth 128) ||| ((s <<< 8) ||| y.setWidth 128) := by
        ext i hi
        simp
        by_cases hi8 : i < 8
        · simp [hi8]
        · simp [hi8, BitVec.getLsbD_of_ge x i (by omega), BitVec.getLsbD_of_ge y i (by omega)]
      have := ih m ((r <<< 8) ||| x.setWidth 128) ((s <<< 8) ||| y.setWidth 128) h
      rw [← e] at this
      exact this

/-- The 128 bit word of sixteen bytes. -/
def word (a : Bytes16) : BitVec 128 := toU 0 a.toList

theorem word_toNat (a : Bytes16) : (word a).toNat = ip a := by
  have h := toU_toNat a.toList 0
  have hlt := ip_lt a
  unfold word
  rw [h]
  have h0 : (0 : BitVec 128).toNat = 0 := rfl
  rw [h0, Nat.zero_mul, Nat.zero_add]
  exact Nat.mod_eq_of_lt hlt

theorem word_inj {a b : Bytes16} (h : word a = word b) : a = b := by
  apply ip_inj; rw [← word_toNat, ← word_toNat, h]

theorem ipToUint128_word (a : Addr) : a.ipToUint128 = word a.bytes := rfl

theorem word_and (a b : Bytes16) : word (Vector.zipWith (· &&& ·) a b) = word a &&& word b := by
  have := toU_and a.toList b.toList 0 0 (by simp)
  simpa [word] using this

theorem word_or (a b : Bytes16) : word (Vector.zipWith (· ||| ·) a b) = word a ||| word b := by
  have := toU_or a.toList b.toList 0 0 (by simp)
  simpa [word] using this

theorem word_not (a : Bytes16) : word (a.map (~~~·)) = ~~~ word a := by
  -- the complement is the one word that is disjoint from and covers all ones with `word a`
  have h1 : word (Vector.zipWith (· &&& ·) a (a.map (~~~·))) = 0 := by
    have : Vector.zipWith (· &&& ·) a (a.map (~~~·)) = Vector.replicate 16 (0 : Byte) := by
      ext i hi j hj; simp
    rw [this]; decide
  have h2 : word (Vector.zipWith (· ||| ·) a (a.map (~~~·))) = BitVec.allOnes 128 := by
    have : Vector.zipWith (· ||| ·) a (a.map (~~~·)) = Vector.replicate 16 (255 : Byte) := by
      ext i hi : 1
      simp only [Vector.getElem_zipWith, Vector.getElem_map, Vector.getElem_replicate]
      rw [show (255 : Byte) = BitVec.allOnes 8 from rfl]
      ext j hj; simp
    rw [this]; decide
  rw [word_and] at h1
  rw [word_or] at h2
  ext i hi
  have e1 := congrArg (·.getLsbD i) h1
  have e2 := congrArg (·.getLsbD i) h2
  simp only [BitVec.getLsbD_and, BitVec.getLsbD_or, BitVec.getLsbD_allOnes, hi] at e1 e2
  rw [← BitVec.getLsbD_eq_getElem, ← BitVec.getLsbD_eq_getElem, BitVec.getLsbD_not]
  revert e1 e2
  cases (word a).getLsbD i <;> cases (word (a.map (~~~·))).getLsbD i <;> simp [hi]

end Verif
