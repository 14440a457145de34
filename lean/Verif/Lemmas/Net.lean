import Verif.Lemmas.Mask

/-!
# The address viewed as 16 and 32 bit words
-/

namespace Verif

open Spec

theorem append8_toNat {n : Nat} (x : BitVec n) (y : Byte) : (x ++ y).toNat = x.toNat * 256 + y.toNat := by
  rw [BitVec.toNat_append, ← Nat.shiftLeft_add_eq_or_of_lt y.isLt, Nat.shiftLeft_eq]

/-- Sixteen bytes, spelled out. -/
theorem bytes16_cases (b : Bytes16) :
    ∃ b0 b1 b2 b3 b4 b5 b6 b7 b8 b9 b10 b11 b12 b13 b14 b15 : Byte,
      b = #v[b0, b1, b2, b3, b4, b5, b6, b7, b8, b9, b10, b11, b12, b13, b14, b15] := by
  refine ⟨b[0], b[1], b[2], b[3], b[4], b[5], b[6], b[7], b[8], b[9], b[10], b[11], b[12], b[13], b[14], b[15], ?_⟩
  ext i hi : 1
  have : i = 0 ∨ i = 1 ∨ i = 2 ∨ i = 3 ∨ i = 4 ∨ i = 5 ∨ i = 6 ∨ i = 7 ∨ i = 8 ∨ i = 9 ∨ i = 10 ∨ i = 11 ∨ i = 12
      ∨ i = 13 ∨ i = 14 ∨ i = 15 := by omega
  rcases this with rfl | rfl | rfl | rfl | rfl | rfl | rfl | rfl | rfl | rfl | rfl | rfl | rfl | rfl | rfl | rfl <;> rfl

theorem zero_iff {w : Nat} (x : BitVec w) : x = 0 ↔ x.toNat = 0 := by
  constructor
  · rintro rfl; simp
  · intro h; apply BitVec.eq_of_toNat_eq; simpa using h

/-- The number of an address in terms of its first 32 bits, of its middle 64 bits and of its last 32 bits. -/
structure Parts (b : Bytes16) where
  w0 : (Addr.word32 b 0 = 0) ↔ ip b / 2 ^ 96 = 0
  w1 : (Addr.word32 b 1 = 0) ↔ ip b / 2 ^ 64 % 2 ^ 32 = 0
  w2 : (Addr.word32 b 2 = 0) ↔ ip b / 2 ^ 32 % 2 ^ 32 = 0
  w3 : (Addr.word32 b 3 = 0) ↔ ip b % 2 ^ 32 = 0
  h4 : (Addr.word16 b 4 = 0) ↔ ip b / 2 ^ 48 % 2 ^ 16 = 0
  h5 : (Addr.word16 b 5 = 0) ↔ ip b / 2 ^ 32 % 2 ^ 16 = 0
  h5f : (Addr.word16 b 5 = 0xFFFF) ↔ ip b / 2 ^ 32 % 2 ^ 16 = 0xFFFF
  h6 : (Addr.word16 b 6 = 0) ↔ ip b / 2 ^ 16 % 2 ^ 16 = 0
  h7 : (Addr.word16 b 7 = swap16 1) ↔ ip b % 2 ^ 16 = 1
  host : (Addr.swap32 (Addr.word32 b 3)).toNat = ip b % 2 ^ 32
  pfx : (swap16 (Addr.word16 b 0)).toNat = ip b / 2 ^ 112
  next : (swap16 (Addr.word16 b 1)).toNat = ip b / 2 ^ 96 % 2 ^ 16

theorem swap16_toNat (x y : Byte) : (swap16 (x ++ y)).toNat = y.toNat * 256 + x.toNat := by
  have hx := x.isLt
  have hy := y.isLt
  unfold swap16
  rw [append8_toNat, BitVec.toNat_setWidth, BitVec.toNat_setWidth, BitVec.toNat_ushiftRight, append8_toNat,
    Nat.shiftRight_eq_div_pow]
  omega

theorem swap32_toNat (x y z w : Byte) :
    (Addr.swap32 (x ++ y ++ z ++ w)).toNat = ((w.toNat * 256 + z.toNat) * 256 + y.toNat) * 256 + x.toNat := by
  have hx := x.isLt
  have hy := y.isLt
  have hz := z.isLt
  have hw := w.isLt
  unfold Addr.swap32
  simp only [append8_toNat, BitVec.toNat_setWidth, BitVec.toNat_ushiftRight, Nat.shiftRight_eq_div_pow]
  have e0 : (((x.toNat * 256 + y.toNat) * 256 + z.toNat) * 256 + w.toNat) % 2 ^ 8 = w.toNat := by omega
  have e1 : (((x.toNat * 256 + y.toNat) * 256 + z.toNat) * 256 + w.toNat) / 2 ^ 8 % 2 ^ 8 = z.toNat := by omega
  have e2 : (((x.toNat * 256 + y.toNat) * 256 + z.toNat) * 256 + w.toNat) / 2 ^ 16 % 2 ^ 8 = y.toNat := by omega
  have e3 : (((x.toNat * 256 + y.toNat) * 256 + z.toNat) * 256 + w.toNat) / 2 ^ 24 % 2 ^ 8 = x.toNat := by omega
  rw [e0, e1, e2, e3]

theorem value_split (l m : List Byte) :
    value (l ++ m) / 256 ^ m.length = value l ∧ value (l ++ m) % 256 ^ m.length = value m := by
  have hm := value_lt m
  have hp : 0 < 256 ^ m.length := Nat.pow_pos (by decide)
  rw [value_append]
  constructor
  · rw [Nat.mul_comm, Nat.mul_add_div hp, Nat.div_eq_of_lt hm, Nat.add_zero]
  · rw [Nat.mul_comm, Nat.mul_add_mod, Nat.mod_eq_of_lt hm]

theorem value_mid (l m r : List Byte) :
    value (l ++ m ++ r) / 256 ^ r.length % 256 ^ m.length = value m := by
  rw [(value_split (l ++ m) r).1, (value_split l m).2]

theorem swap16_swap16 (x : BitVec 16) : swap16 (swap16 x) = x := by
  apply BitVec.eq_of_toNat_eq
  have hx := x.isLt
  rw [show swap16 (swap16 x) = swap16 ((x.setWidth 8) ++ ((x >>> 8).setWidth 8)) from rfl, swap16_toNat,
    BitVec.toNat_setWidth, BitVec.toNat_setWidth, BitVec.toNat_ushiftRight, Nat.shiftRight_eq_div_pow]
  omega

theorem parts (b : Bytes16) : Parts b := by
  obtain ⟨b0, b1, b2, b3, b4, b5, b6, b7, b8, b9, b10, b11, b12, b13, b14, b15, rfl⟩ := bytes16_cases b
  have m0 : ip #v[b0, b1, b2, b3, b4, b5, b6, b7, b8, b9, b10, b11, b12, b13, b14, b15] / 2 ^ 96
      = value [b0, b1, b2, b3] := by
    rw [show (2 : Nat) ^ 96 = 256 ^ 12 by decide]
    exact (value_split [b0, b1, b2, b3] [b4, b5, b6, b7, b8, b9, b10, b11, b12, b13, b14, b15]).1
  have m1 : ip #v[b0, b1, b2, b3, b4, b5, b6, b7, b8, b9, b10, b11, b12, b13, b14, b15] / 2 ^ 64 % 2 ^ 32
      = value [b4, b5, b6, b7] := by
    rw [show (2 : Nat) ^ 32 = 256 ^ 4 by decide, show (2 : Nat) ^ 64 = 256 ^ 8 by decide]
    exact value_mid [b0, b1, b2, b3] [b4, b5, b6, b7] [b8, b9, b10, b11, b12, b13, b14, b15]
  have m2 : ip #v[b0, b1, b2, b3, b4, b5, b6, b7, b8, b9, b10, b11, b12, b13, b14, b15] / 2 ^ 32 % 2 ^ 32
      = value [b8, b9, b10, b11] := by
    rw [show (2 : Nat) ^ 32 = 256 ^ 4 by decide]
    exact value_mid [b0, b1, b2, b3, b4, b5, b6, b7] [b8, b9, b10, b11] [b12, b13, b14, b15]
  have m3 : ip #v[b0, b1, b2, b3, b4, b5, b6, b7, b8, b9, b10, b11, b12, b13, b14, b15] % 2 ^ 32
      = value [b12, b13, b14, b15] := by
    rw [show (2 : Nat) ^ 32 = 256 ^ 4 by decide]
    exact (value_split [b0, b1, b2, b3, b4, b5, b6, b7, b8, b9, b10, b11] [b12, b13, b14, b15]).2
  have n0 : ip #v[b0, b1, b2, b3, b4, b5, b6, b7, b8, b9, b10, b11, b12, b13, b14, b15] / 2 ^ 112
      = value [b0, b1] := by
    rw [show (2 : Nat) ^ 112 = 256 ^ 14 by decide]
    exact (value_split [b0, b1] [b2, b3, b4, b5, b6, b7, b8, b9, b10, b11, b12, b13, b14, b15]).1
  have n1 : ip #v[b0, b1, b2, b3, b4, b5, b6, b7, b8, b9, b10, b11, b12, b13, b14, b15] / 2 ^ 96 % 2 ^ 16
      = value [b2, b3] := by
    rw [show (2 : Nat) ^ 16 = 256 ^ 2 by decide, show (2 : Nat) ^ 96 = 256 ^ 12 by decide]
    exact value_mid [b0, b1] [b2, b3] [b4, b5, b6, b7, b8, b9, b10, b11, b12, b13, b14, b15]
  have n4 : ip #v[b0, b1, b2, b3, b4, b5, b6, b7, b8, b9, b10, b11, b12, b13, b14, b15] / 2 ^ 48 % 2 ^ 16
      = value [b8, b9] := by
    rw [show (2 : Nat) ^ 16 = 256 ^ 2 by decide, show (2 : Nat) ^ 48 = 256 ^ 6 by decide]
    exact value_mid [b0, b1, b2, b3, b4, b5, b6, b7] [b8, b9] [b10, b11, b12, b13, b14, b15]
  have n5 : ip #v[b0, b1, b2, b3, b4, b5, b6, b7, b8, b9, b10, b11, b12, b13, b14, b15] / 2 ^ 32 % 2 ^ 16
      = value [b10, b11] := by
    rw [show (2 : Nat) ^ 16 = 256 ^ 2 by decide, show (2 : Nat) ^ 32 = 256 ^ 4 by decide]
    exact value_mid [b0, b1, b2, b3, b4, b5, b6, b7, b8, b9] [b10, b11] [b12, b13, b14, b15]
  have n6 : ip #v[b0, b1, b2, b3, b4, b5, b6, b7, b8, b9, b10, b11, b12, b13, b14, b15] / 2 ^ 16 % 2 ^ 16
      = value [b12, b13] := by
    rw [show (2 : Nat) ^ 16 = 256 ^ 2 by decide]
    exact value_mid [b0, b1, b2, b3, b4, b5, b6, b7, b8, b9, b10, b11] [b12, b13] [b14, b15]
  have n7 : ip #v[b0, b1, b2, b3, b4, b5, b6, b7, b8, b9, b10, b11, b12, b13, b14, b15] % 2 ^ 16
      = value [b14, b15] := by
    rw [show (2 : Nat) ^ 16 = 256 ^ 2 by decide]
    exact (value_split [b0, b1, b2, b3, b4, b5, b6, b7, b8, b9, b10, b11, b12, b13] [b14, b15]).2
  have h0 := b0.isLt
  have h1 := b1.isLt
  have h2 := b2.isLt
  have h3 := b3.isLt
  have h4 := b4.isLt
  have h5 := b5.isLt
  have h6 := b6.isLt
  have h7 := b7.isLt
  have h8 := b8.isLt
  have h9 := b9.isLt
  have h10 := b10.isLt
  have h11 := b11.isLt
  have h12 := b12.isLt
  have h13 := b13.isLt
  have h14 := b14.isLt
  have h15 := b15.isLt
  have w0 : Addr.word32 #v[b0, b1, b2, b3, b4, b5, b6, b7, b8, b9, b10, b11, b12, b13, b14, b15] 0
      = b3 ++ b2 ++ b1 ++ b0 := rfl
  have w1 : Addr.word32 #v[b0, b1, b2, b3, b4, b5, b6, b7, b8, b9, b10, b11, b12, b13, b14, b15] 1
      = b7 ++ b6 ++ b5 ++ b4 := rfl
  have w2 : Addr.word32 #v[b0, b1, b2, b3, b4, b5, b6, b7, b8, b9, b10, b11, b12, b13, b14, b15] 2
      = b11 ++ b10 ++ b9 ++ b8 := rfl
  have w3 : Addr.word32 #v[b0, b1, b2, b3, b4, b5, b6, b7, b8, b9, b10, b11, b12, b13, b14, b15] 3
      = b15 ++ b14 ++ b13 ++ b12 := rfl
  have x0 : Addr.word16 #v[b0, b1, b2, b3, b4, b5, b6, b7, b8, b9, b10, b11, b12, b13, b14, b15] 0
      = b1 ++ b0 := rfl
  have x1 : Addr.word16 #v[b0, b1, b2, b3, b4, b5, b6, b7, b8, b9, b10, b11, b12, b13, b14, b15] 1
      = b3 ++ b2 := rfl
  have x4 : Addr.word16 #v[b0, b1, b2, b3, b4, b5, b6, b7, b8, b9, b10, b11, b12, b13, b14, b15] 4
      = b9 ++ b8 := rfl
  have x5 : Addr.word16 #v[b0, b1, b2, b3, b4, b5, b6, b7, b8, b9, b10, b11, b12, b13, b14, b15] 5
      = b11 ++ b10 := rfl
  have x6 : Addr.word16 #v[b0, b1, b2, b3, b4, b5, b6, b7, b8, b9, b10, b11, b12, b13, b14, b15] 6
      = b13 ++ b12 := rfl
  have x7 : Addr.word16 #v[b0, b1, b2, b3, b4, b5, b6, b7, b8, b9, b10, b11, b12, b13, b14, b15] 7
      = b15 ++ b14 := rfl
  constructor
  · rw [m0, w0, zero_iff]; clear m0 m1 m2 m3 n0 n1 n4 n5 n6 n7 w0 w1 w2 w3 x0 x1 x4 x5 x6 x7
    simp only [value, List.foldl_cons, List.foldl_nil, append8_toNat]; omega
  · rw [m1, w1, zero_iff]; clear m0 m1 m2 m3 n0 n1 n4 n5 n6 n7 w0 w1 w2 w3 x0 x1 x4 x5 x6 x7
    simp only [value, List.foldl_cons, List.foldl_nil, append8_toNat]; omega
  · rw [m2, w2, zero_iff]; clear m0 m1 m2 m3 n0 n1 n4 n5 n6 n7 w0 w1 w2 w3 x0 x1 x4 x5 x6 x7
    simp only [value, List.foldl_cons, List.foldl_nil, append8_toNat]; omega
  · rw [m3, w3, zero_iff]; clear m0 m1 m2 m3 n0 n1 n4 n5 n6 n7 w0 w1 w2 w3 x0 x1 x4 x5 x6 x7
    simp only [value, List.foldl_cons, List.foldl_nil, append8_toNat]; omega
  · rw [n4, x4, zero_iff]; clear m0 m1 m2 m3 n0 n1 n4 n5 n6 n7 w0 w1 w2 w3 x0 x1 x4 x5 x6 x7
    simp only [value, List.foldl_cons, List.foldl_nil, append8_toNat]; omega
  · rw [n5, x5, zero_iff]; clear m0 m1 m2 m3 n0 n1 n4 n5 n6 n7 w0 w1 w2 w3 x0 x1 x4 x5 x6 x7
    simp only [value, List.foldl_cons, List.foldl_nil, append8_toNat]; omega
  · rw [n5, x5, ← BitVec.toNat_inj, show (0xFFFF : BitVec 16).toNat = 65535 from rfl]; clear m0 m1 m2 m3 n0 n1 n4 n5 n6 n7 w0 w1 w2 w3 x0 x1 x4 x5 x6 x7
    simp only [value, List.foldl_cons, List.foldl_nil, append8_toNat]; omega
  · rw [n6, x6, zero_iff]; clear m0 m1 m2 m3 n0 n1 n4 n5 n6 n7 w0 w1 w2 w3 x0 x1 x4 x5 x6 x7
    simp only [value, List.foldl_cons, List.foldl_nil, append8_toNat]; omega
  · rw [n7, x7, ← BitVec.toNat_inj, show (swap16 1).toNat = 256 from rfl]; clear m0 m1 m2 m3 n0 n1 n4 n5 n6 n7 w0 w1 w2 w3 x0 x1 x4 x5 x6 x7
    simp only [value, List.foldl_cons, List.foldl_nil, append8_toNat]; omega
  · rw [m3, w3, swap32_toNat]; clear m0 m1 m2 m3 n0 n1 n4 n5 n6 n7 w0 w1 w2 w3 x0 x1 x4 x5 x6 x7
    simp only [value, List.foldl_cons, List.foldl_nil]; omega
  · rw [n0, x0, swap16_toNat]; clear m0 m1 m2 m3 n0 n1 n4 n5 n6 n7 w0 w1 w2 w3 x0 x1 x4 x5 x6 x7
    simp only [value, List.foldl_cons, List.foldl_nil]; omega
  · rw [n1, x1, swap16_toNat]; clear m0 m1 m2 m3 n0 n1 n4 n5 n6 n7 w0 w1 w2 w3 x0 x1 x4 x5 x6 x7
    simp only [value, List.foldl_cons, List.foldl_nil]; omega


theorem top32_zero (v : Nat) : (v / 2 ^ 96 = 0 ∧ v / 2 ^ 64 % 2 ^ 32 = 0) ↔ v < 2 ^ 64 := by
  constructor
  · rintro ⟨h1, h2⟩
    have e : v / 2 ^ 64 / 2 ^ 32 = v / 2 ^ 96 := by rw [Nat.div_div_eq_div_mul]
    omega
  · intro h
    rw [Nat.div_eq_of_lt (by omega), Nat.div_eq_of_lt h]
    simp

theorem isIpv4_iff_div (a : Addr) : a.isIpv4 = true ↔ ip a.bytes / 2 ^ 32 = 0xffff := by
  have p := parts a.bytes
  simp only [Addr.isIpv4, Bool.and_eq_true, beq_iff_eq, p.w0, p.w1, p.h4, p.h5f]
  rw [top32_zero]
  generalize ip a.bytes = v
  have e : v / 2 ^ 32 / 2 ^ 16 = v / 2 ^ 48 := by rw [Nat.div_div_eq_div_mul]
  have e' : v / 2 ^ 48 / 2 ^ 16 = v / 2 ^ 64 := by rw [Nat.div_div_eq_div_mul]
  rw [← Nat.div_eq_zero_iff_lt (by decide), ← e', ← e]
  omega

theorem isV4_iff_div (v : Nat) : isV4 v ↔ v / 2 ^ 32 = 0xffff := by
  unfold isV4 inBlock
  rw [Nat.div_eq_iff (by decide)]
  omega

theorem isIpv4_iff (a : Addr) : a.isIpv4 = true ↔ isV4 (ip a.bytes) := by
  rw [isIpv4_iff_div, isV4_iff_div]

theorem isDefault_iff (a : Addr) : a.isDefault = true ↔ isAny (ip a.bytes) := by
  have p := parts a.bytes
  simp only [Addr.isDefault, Bool.and_eq_true, Bool.or_eq_true, beq_iff_eq, p.w0, p.w1, p.h4, p.h5, p.h5f, p.w3]
  rw [top32_zero]
  generalize ip a.bytes = v
  have e : v / 2 ^ 32 / 2 ^ 16 = v / 2 ^ 48 := by rw [Nat.div_div_eq_div_mul]
  have e' : v / 2 ^ 48 / 2 ^ 16 = v / 2 ^ 64 := by rw [Nat.div_div_eq_div_mul]
  rw [← Nat.div_eq_zero_iff_lt (by decide), ← e', ← e]
  unfold isAny v4
  omega

/-! ## The tests of `get_network_type()` as numbers -/

theorem and32 (x : BitVec 32) (k : Nat) (m c : BitVec 32) (hm : m = BitVec.allOnes 32 <<< k) :
    (x &&& m == c) = decide (x.toNat / 2 ^ k * 2 ^ k = c.toNat) := by
  rw [hm, ← and_hi_toNat, Bool.eq_iff_iff, beq_iff_eq, decide_eq_true_eq, BitVec.toNat_inj]

theorem and16 (x : BitVec 16) (k : Nat) (m c : BitVec 16) (hm : m = BitVec.allOnes 16 <<< k) :
    (x &&& m == c) = decide (x.toNat / 2 ^ k * 2 ^ k = c.toNat) := by
  rw [hm, ← and_hi_toNat, Bool.eq_iff_iff, beq_iff_eq, decide_eq_true_eq, BitVec.toNat_inj]

theorem and_ff0f (x : BitVec 16) (d : BitVec 16) (hd : d < 16) :
    (x &&& 0xFF0F == 0xFF00 ||| d) = decide (x.toNat / 256 = 255 ∧ x.toNat % 16 = d.toNat) := by
  have key : ∀ hi lo d : Byte, d < 16 → ((hi &&& 0xFF == 0xFF && lo &&& 0x0F == d)
      = decide (hi.toNat = 255 ∧ lo.toNat % 16 = d.toNat)) := by
    intro hi lo d hd
    have e1 : hi &&& 0xFF = hi := by
      rw [show (0xFF : Byte) = BitVec.allOnes 8 from rfl, BitVec.and_allOnes]
    have e2 : (lo &&& 0x0F).toNat = lo.toNat % 16 := by
      rw [BitVec.toNat_and, show (0x0F : Byte).toNat = 2 ^ 4 - 1 from rfl, Nat.and_two_pow_sub_one_eq_mod]
    rw [e1, Bool.eq_iff_iff]
    simp only [Bool.and_eq_true, beq_iff_eq, decide_eq_true_eq, ← BitVec.toNat_inj, e2]
    simp
  have hx : x = (x >>> 8).setWidth 8 ++ x.setWidth 8 := by
    apply BitVec.eq_of_toNat_eq
    rw [append8_toNat, BitVec.toNat_setWidth, BitVec.toNat_setWidth, BitVec.toNat_ushiftRight, Nat.shiftRight_eq_div_pow]
    have := x.isLt
    omega
  have hdt : d.toNat < 16 := hd
  have hdd : (0xFF00 ||| d) = (0xFF : Byte) ++ d.setWidth 8 := by
    apply BitVec.eq_of_toNat_eq
    rw [append8_toNat, BitVec.toNat_setWidth, BitVec.toNat_or]
    have : (0xFF00 : BitVec 16).toNat ||| d.toNat = 0xFF00 + d.toNat := by
      rw [show (0xFF00 : BitVec 16).toNat = 0xFF <<< 8 from rfl, ← Nat.shiftLeft_add_eq_or_of_lt (by omega)]
      rfl
    rw [this, Nat.mod_eq_of_lt (by omega)]
    rfl
  have hm : (0xFF0F : BitVec 16) = (0xFF : Byte) ++ (0x0F : Byte) := rfl
  have hn1 : ((x >>> 8).setWidth 8 : Byte).toNat = x.toNat / 256 := by
    rw [BitVec.toNat_setWidth, BitVec.toNat_ushiftRight, Nat.shiftRight_eq_div_pow]
    have := x.isLt
    omega
  have hn2 : (x.setWidth 8 : Byte).toNat % 16 = x.toNat % 16 := by
    rw [BitVec.toNat_setWidth]; omega
  have hn3 : (d.setWidth 8 : Byte).toNat = d.toNat := by
    rw [BitVec.toNat_setWidth, Nat.mod_eq_of_lt (by omega)]
  have := key ((x >>> 8).setWidth 8) (x.setWidth 8) (d.setWidth 8) (by
    show (d.setWidth 8 : Byte).toNat < 16
    rw [hn3]; exact hd)
  rw [hn1, hn2, hn3] at this
  rw [← this]
  conv => lhs; rw [hx, hm, hdd]
  rw [BitVec.and_append]
  rw [Bool.eq_iff_iff]
  simp only [beq_iff_eq, Bool.and_eq_true]
  constructor
  · intro h
    have h' := congrArg BitVec.toNat h
    rw [append8_toNat, append8_toNat] at h'
    have l1 := ((x.setWidth 8 : Byte) &&& 0x0F).isLt
    have l2 := (d.setWidth 8 : Byte).isLt
    constructor <;> apply BitVec.eq_of_toNat_eq <;> omega
  · rintro ⟨h1, h2⟩
    rw [h1, h2]

theorem mul_eq_iff {q d c k : Nat} (hd : 0 < d) (hc : c = k * d) : q * d = c ↔ q = k := by
  rw [hc]; exact Nat.mul_left_inj (by omega)

/-- What `classify()` computes, in terms of the number of the address. -/
def classifyNat (v : Nat) : NetType :=
  if v / 2 ^ 32 = 0xffff then
    let h := v % 2 ^ 32
    if h / 2 ^ 24 = 10 ∨ h / 2 ^ 20 = 0xac1 ∨ h / 2 ^ 16 = 0xc0a8 then .priv
    else if h / 2 ^ 22 = 0x191 then .carrier
    else if h / 2 ^ 16 = 0xa9fe then .linkLocal
    else if h / 2 ^ 28 = 14 then .multicast
    else if h / 2 ^ 24 = 127 then .loopback
    else if h = 0 then .any
    else .unknown
  else if v = 0 then .any
  else
    let p := v / 2 ^ 112
    if p / 2 ^ 8 = 0xfd then .priv
    else if p / 2 ^ 6 = 0x3fa ∨ (p / 256 = 255 ∧ p % 16 = 2) then .linkLocal
    else if (p / 256 = 255 ∧ p % 16 = 1) ∨ v = 1 then .loopback
    else if p / 2 ^ 8 = 0xff then .multicast
    else if p = 0x2001 then
      if v / 2 ^ 96 % 2 ^ 16 = 0xdb8 then .documentation else .unknown
    else if p = 0x3fff then
      if v / 2 ^ 96 % 2 ^ 16 / 2 ^ 12 = 0 then .documentation else .unknown
    else .unknown

theorem classify_eq (a : Addr) : Addr.classify a.bytes a.isIpv4 = classifyNat (ip a.bytes) := by
  have p := parts a.bytes
  have h4 := isIpv4_iff_div a
  have hz : (Addr.word32 a.bytes 0 == 0 && Addr.word32 a.bytes 1 == 0 && Addr.word32 a.bytes 2 == 0
      && Addr.word32 a.bytes 3 == 0) = decide (ip a.bytes = 0) := by
    rw [Bool.eq_iff_iff]
    simp only [Bool.and_eq_true, beq_iff_eq, p.w0, p.w1, p.w2, p.w3, decide_eq_true_eq]
    rw [top32_zero]
    generalize ip a.bytes = v
    have e : v / 2 ^ 32 / 2 ^ 32 = v / 2 ^ 64 := by rw [Nat.div_div_eq_div_mul]
    rw [← Nat.div_eq_zero_iff_lt (by decide), ← e]
    omega
  have h1 : (Addr.word32 a.bytes 0 == 0 && Addr.word32 a.bytes 1 == 0 && Addr.word32 a.bytes 2 == 0
      && Addr.word16 a.bytes 6 == 0 && Addr.word16 a.bytes 7 == swap16 1) = decide (ip a.bytes = 1) := by
    rw [Bool.eq_iff_iff]
    simp only [Bool.and_eq_true, beq_iff_eq, p.w0, p.w1, p.w2, p.h6, p.h7, decide_eq_true_eq]
    rw [top32_zero]
    generalize ip a.bytes = v
    have e : v / 2 ^ 32 / 2 ^ 32 = v / 2 ^ 64 := by rw [Nat.div_div_eq_div_mul]
    have e' : v / 2 ^ 16 / 2 ^ 16 = v / 2 ^ 32 := by rw [Nat.div_div_eq_div_mul]
    rw [← Nat.div_eq_zero_iff_lt (by decide), ← e, ← e']
    omega
  have s2 := and_ff0f (swap16 (Addr.word16 a.bytes 0)) 2 (by decide)
  have s1 := and_ff0f (swap16 (Addr.word16 a.bytes 0)) 1 (by decide)
  rw [show (0xFF00 ||| 2 : BitVec 16) = 0xFF02 from rfl] at s2
  rw [show (0xFF00 ||| 1 : BitVec 16) = 0xFF01 from rfl] at s1
  have z32 : ∀ x : BitVec 32, (x == 0x00000000) = decide (x.toNat = 0) := by
    intro x; rw [Bool.eq_iff_iff]; simp only [beq_iff_eq, decide_eq_true_eq, ← BitVec.toNat_inj]; rfl
  have z16 : ∀ x c : BitVec 16, (x == c) = decide (x.toNat = c.toNat) := by
    intro x c; rw [Bool.eq_iff_iff]; simp only [beq_iff_eq, decide_eq_true_eq, ← BitVec.toNat_inj]
  unfold Addr.classify classifyNat
  simp only [h4]
  rw [and32 _ 24 0xFF000000 _ rfl, and32 _ 20 0xFFF00000 _ rfl, and32 _ 16 0xFFFF0000 _ rfl, and32 _ 22 0xFFC00000 _ rfl,
    and32 _ 16 0xFFFF0000 _ rfl, and32 _ 28 0xF0000000 _ rfl, and32 _ 24 0xFF000000 _ rfl, z32, p.host, hz, h1, s1, s2]
  rw [and16 _ 8 0xFF00 0xFD00 rfl, and16 _ 6 0xFFC0 _ rfl, and16 _ 8 0xFF00 0xFF00 rfl, and16 _ 12 0xF000 _ rfl, z16, z16, z16,
    p.pfx, p.next]
  generalize ip a.bytes = v
  simp only [Bool.or_eq_true, decide_eq_true_eq]
  by_cases hv : v / 2 ^ 32 = 0xffff
  · simp only [hv, if_true]
    generalize v % 2 ^ 32 = h
    have e1 : h / 2 ^ 24 * 2 ^ 24 = (167772160 : BitVec 32).toNat ↔ h / 2 ^ 24 = 10 :=
      mul_eq_iff (by decide) (by decide)
    have e2 : h / 2 ^ 20 * 2 ^ 20 = (2886729728 : BitVec 32).toNat ↔ h / 2 ^ 20 = 0xac1 :=
      mul_eq_iff (by decide) (by decide)
    have e3 : h / 2 ^ 16 * 2 ^ 16 = (3232235520 : BitVec 32).toNat ↔ h / 2 ^ 16 = 0xc0a8 :=
      mul_eq_iff (by decide) (by decide)
    have e4 : h / 2 ^ 22 * 2 ^ 22 = (1681915904 : BitVec 32).toNat ↔ h / 2 ^ 22 = 0x191 :=
      mul_eq_iff (by decide) (by decide)
    have e5 : h / 2 ^ 16 * 2 ^ 16 = (2851995648 : BitVec 32).toNat ↔ h / 2 ^ 16 = 0xa9fe :=
      mul_eq_iff (by decide) (by decide)
    have e6 : h / 2 ^ 28 * 2 ^ 28 = (3758096384 : BitVec 32).toNat ↔ h / 2 ^ 28 = 14 :=
      mul_eq_iff (by decide) (by decide)
    have e7 : h / 2 ^ 24 * 2 ^ 24 = (2130706432 : BitVec 32).toNat ↔ h / 2 ^ 24 = 127 :=
      mul_eq_iff (by decide) (by decide)
    simp only [e1, e2, e3, e4, e5, e6, e7, or_assoc]
  · simp only [hv, if_false]
    generalize v / 2 ^ 112 = q
    have e1 : q / 2 ^ 8 * 2 ^ 8 = (64768 : BitVec 16).toNat ↔ q / 2 ^ 8 = 0xfd :=
      mul_eq_iff (by decide) (by decide)
    have e2 : q / 2 ^ 6 * 2 ^ 6 = (65152 : BitVec 16).toNat ↔ q / 2 ^ 6 = 0x3fa :=
      mul_eq_iff (by decide) (by decide)
    have e3 : q / 2 ^ 8 * 2 ^ 8 = (65280 : BitVec 16).toNat ↔ q / 2 ^ 8 = 0xff :=
      mul_eq_iff (by decide) (by decide)
    have e4 : v / 2 ^ 96 % 2 ^ 16 / 2 ^ 12 * 2 ^ 12 = (0 : BitVec 16).toNat ↔ v / 2 ^ 96 % 2 ^ 16 / 2 ^ 12 = 0 :=
      mul_eq_iff (by decide) (by decide)
    simp only [e1, e2, e3, e4]
    simp

end Verif
