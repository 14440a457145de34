import Verif.Model.Route
import Verif.SpecRoute

/-!
# Lemmas on the route table
-/

namespace Verif
open Spec

namespace Route

/-! ## Words -/

/-- The state of `readwords()` after some characters of a line. -/
def scan : Str → List Str × Str → List Str × Str
  | [], st => st
  | c :: s, st =>
    if c = '\t' ∨ c = ' ' then if st.2 ≠ [] then scan s (st.1 ++ [st.2], []) else scan s st
    else scan s (st.1, st.2 ++ [c])

theorem readLines_scan {a : Str} (h : '\n' ∉ a) (s : Str) (words : List Str) (w : Str) :
    readLines (a ++ s) words w = readLines s (scan a (words, w)).1 (scan a (words, w)).2 := by
  induction a generalizing words w with
  | nil => rfl
  | cons c a ih =>
    simp only [List.mem_cons, not_or] at h
    rw [List.cons_append, readLines, if_neg (Ne.symm h.1), scan]
    dsimp only
    by_cases hb : c = '\t' ∨ c = ' '
    · rw [if_pos hb, if_pos hb]
      by_cases hw : w ≠ []
      · rw [if_pos hw, if_pos hw, ih h.2]
      · rw [if_neg hw, if_neg hw, ih h.2]
    · rw [if_neg hb, if_neg hb, ih h.2]

/-- A text without blanks. -/
def NoBlank (w : Str) : Prop := ∀ c ∈ w, c ≠ ' ' ∧ c ≠ '\t' ∧ c ≠ '\n'

theorem scan_word {w : Str} (h : NoBlank w) (s : Str) (words : List Str) (cur : Str) :
    scan (w ++ s) (words, cur) = scan s (words, cur ++ w) := by
  induction w generalizing cur with
  | nil => simp
  | cons c w ih =>
    have hc := h c (by simp)
    rw [List.cons_append, scan, if_neg (fun h => h.elim hc.2.1 hc.1)]
    dsimp only
    rw [ih (fun d hd => h d (List.mem_cons_of_mem _ hd))]
    simp

theorem scan_tab {w : Str} (h : NoBlank w) (hw : w ≠ []) (s : Str) (words : List Str) :
    scan (w ++ '\t' :: s) (words, []) = scan s (words ++ [w], []) := by
  rw [scan_word h, scan, if_pos (Or.inl rfl)]
  simp [hw]

theorem scan_spaces (n : Nat) (words : List Str) : scan (List.replicate n ' ') (words, []) = (words, []) := by
  induction n with
  | zero => rfl
  | succ n ih => simp only [List.replicate_succ, scan, ne_eq, not_true, if_false, or_true, if_true, ih]

theorem scan_last {w : Str} (h : NoBlank w) (hw : w ≠ []) (n : Nat) (words : List Str) :
    scan (w ++ List.replicate (n + 1) ' ') (words, []) = (words ++ [w], []) := by
  rw [scan_word h, List.replicate_succ, scan, if_pos (Or.inr rfl)]
  simp [hw, scan_spaces]

/-! ## Numbers -/

theorem hexDigitUpper_blank : ∀ n : Fin 16, hexDigitUpper n.val ≠ ' ' ∧ hexDigitUpper n.val ≠ '\t' ∧ hexDigitUpper n.val ≠ '\n' := by
  decide +kernel

theorem hexToNumber_digit : ∀ n : Fin 16, hexToNumber (hexDigitUpper n.val) = .ok n.val := by
  decide +kernel

theorem hexToNumber_of {n : Nat} (h : n < 16) : hexToNumber (hexDigitUpper n) = .ok n := hexToNumber_digit ⟨n, h⟩

theorem hexByte_noBlank (b : Byte) : NoBlank (hexByteUpper b) := by
  have h1 := b.isLt
  intro c hc
  simp only [hexByteUpper, List.mem_cons, List.not_mem_nil, or_false] at hc
  rcases hc with rfl | rfl
  · exact hexDigitUpper_blank ⟨b.toNat / 16, by omega⟩
  · exact hexDigitUpper_blank ⟨b.toNat % 16, by omega⟩

theorem noBlank_append {a b : Str} (ha : NoBlank a) (hb : NoBlank b) : NoBlank (a ++ b) := by
  intro c hc
  rcases List.mem_append.1 hc with h | h
  · exact ha c h
  · exact hb c h

theorem hexLittle_noBlank (b : Bytes4) : NoBlank (hexLittle b) :=
  noBlank_append (noBlank_append (noBlank_append (hexByte_noBlank _) (hexByte_noBlank _)) (hexByte_noBlank _))
    (hexByte_noBlank _)

theorem hex16_noBlank (f : BitVec 16) : NoBlank (hex16 f) := noBlank_append (hexByte_noBlank _) (hexByte_noBlank _)

theorem isDigit_noBlank {c : Char} (h : c.isDigit = true) : c ≠ ' ' ∧ c ≠ '\t' ∧ c ≠ '\n' := by
  refine ⟨?_, ?_, ?_⟩ <;> rintro rfl <;> revert h <;> decide

theorem dec_digits (n : Nat) : ∀ c ∈ dec n, c.isDigit = true := by
  intro c hc
  exact Nat.isDigit_of_mem_toDigits (by decide) (by decide) hc

theorem dec_ne (n : Nat) : dec n ≠ [] := Nat.toDigits_ne_nil

theorem dec_noBlank (n : Nat) : NoBlank (dec n) := fun c hc => isDigit_noBlank (dec_digits n c hc)

theorem signedStr_noBlank (n : Int) : NoBlank (signedStr n) := by
  unfold signedStr
  split
  · intro c hc
    rcases List.mem_cons.1 hc with rfl | h
    · decide
    · exact dec_noBlank _ c h
  · exact dec_noBlank _

theorem signedStr_ne (n : Int) : signedStr n ≠ [] := by
  unfold signedStr
  split
  · simp
  · exact dec_ne _

theorem takeWhile_all {α : Type} {p : α → Bool} {l : List α} (h : ∀ x ∈ l, p x = true) : l.takeWhile p = l := by
  have := List.takeWhile_append_of_pos (l₂ := []) h
  simpa using this

theorem isDigit_notSpace {c : Char} (h : c.isDigit = true) : Parser.isSpace c = false ∧ c ≠ '-' ∧ c ≠ '+' := by
  refine ⟨?_, ?_, ?_⟩
  · rw [← Bool.not_eq_true]
    intro hs
    simp only [Parser.isSpace, Bool.or_eq_true, decide_eq_true_eq] at hs
    rcases hs with ((((rfl | rfl) | rfl) | rfl) | rfl) | rfl <;> revert h <;> decide
  · rintro rfl; revert h; decide
  · rintro rfl; revert h; decide

theorem stol_digits {d : Str} (hne : d ≠ []) (hd : ∀ c ∈ d, c.isDigit = true) (rest : Str)
    (hr : ∀ c t, rest = c :: t → c.isDigit = false) (hv : Nat.ofDigitChars 10 d 0 ≤ 9223372036854775807) :
    stol (d ++ rest) = .ok (Nat.ofDigitChars 10 d 0) := by
  cases d with
  | nil => exact absurd rfl hne
  | cons c d =>
    have hc := isDigit_notSpace (hd c (by simp))
    have ht : ((c :: d) ++ rest).takeWhile Char.isDigit = c :: d := by
      rw [List.takeWhile_append_of_pos hd]
      cases rest with
      | nil => simp
      | cons x t => rw [List.takeWhile_cons_of_neg (by rw [hr x t rfl]; simp)]; simp
    unfold stol
    dsimp only
    rw [List.cons_append, List.dropWhile_cons_of_neg (by rw [hc.1]; simp)]
    have hh : ¬ ((c :: (d ++ rest)).head? = some '-' ∨ (c :: (d ++ rest)).head? = some '+') := by
      simp [hc.2.1, hc.2.2]
    have hm : ¬ ((c :: (d ++ rest)).head? = some '-') := by simp [hc.2.1]
    rw [if_neg hh, show c :: (d ++ rest) = (c :: d) ++ rest from rfl, ht, if_neg (by simp), if_neg]
    · rw [if_neg]; exact hm
    · rw [if_neg]
      · omega
      · exact hm

theorem stol_dec {n : Nat} (h : n ≤ 9223372036854775807) : stol (dec n) = .ok n := by
  have hv : Nat.ofDigitChars 10 (dec n) 0 = n := Nat.ofDigitChars_ten_toDigits
  have := stol_digits (dec_ne n) (dec_digits n) [] (by simp) (by omega)
  rwa [List.append_nil, hv] at this

theorem stol_minus {d : Str} (hne : d ≠ []) (hd : ∀ c ∈ d, c.isDigit = true)
    (hv : Nat.ofDigitChars 10 d 0 ≤ 9223372036854775808) : stol ('-' :: d) = .ok (-(Nat.ofDigitChars 10 d 0 : Int)) := by
  have h1 : ('-' :: d).dropWhile Parser.isSpace = '-' :: d := List.dropWhile_cons_of_neg (by decide)
  have h2 : ('-' :: d).head? = some '-' := rfl
  have h3 : (('-' :: d).drop 1).takeWhile Char.isDigit = d := takeWhile_all hd
  unfold stol
  simp only [h1, h2, true_or, if_true, h3, if_neg hne]
  rw [if_neg (by omega)]

theorem stol_signedStr {n : Int} (h1 : -9223372036854775808 ≤ n) (h2 : n ≤ 9223372036854775807) :
    stol (signedStr n) = .ok n := by
  have hv : Nat.ofDigitChars 10 (dec n.natAbs) 0 = n.natAbs := Nat.ofDigitChars_ten_toDigits
  unfold signedStr
  split
  · rw [stol_minus (dec_ne _) (dec_digits _) (by omega), hv]
    congr 1
    omega
  · rw [stol_dec (by omega)]
    congr 1
    omega

/-! ## Addresses -/

theorem nibbles : ∀ x : Byte, BitVec.ofNat 32 (x.toNat % 16) ||| BitVec.ofNat 32 (x.toNat / 16) <<< 4 = x.setWidth 32 := by
  decide +kernel

theorem join4 (x0 x1 x2 x3 : Byte) (s : BitVec 32)
    (hs : s = x0.setWidth 32 ||| x1.setWidth 32 <<< 8 ||| x2.setWidth 32 <<< 16 ||| x3.setWidth 32 <<< 24) :
    s.setWidth 8 = x0 ∧ (s >>> 8).setWidth 8 = x1 ∧ (s >>> 16).setWidth 8 = x2 ∧ (s >>> 24).setWidth 8 = x3 := by
  subst hs
  refine ⟨?_, ?_, ?_, ?_⟩ <;>
  · apply BitVec.eq_of_getLsbD_eq
    intro i hi
    have : i = 0 ∨ i = 1 ∨ i = 2 ∨ i = 3 ∨ i = 4 ∨ i = 5 ∨ i = 6 ∨ i = 7 := by omega
    rcases this with rfl | rfl | rfl | rfl | rfl | rfl | rfl | rfl <;> simp

/-- The IPv4 structure of four bytes, without port. -/
def in4 (b : Bytes4) : SockaddrIn := { family := AF_INET, port := 0, zero := Vector.replicate 8 0, addr := b }

theorem shifts (a0 b0 a1 b1 a2 b2 a3 b3 : BitVec 32) :
    a0 <<< 0 ||| b0 <<< 4 ||| a1 <<< 8 ||| b1 <<< 12 ||| a2 <<< 16 ||| b2 <<< 20 ||| a3 <<< 24 ||| b3 <<< 28
      = (a0 ||| b0 <<< 4) ||| (a1 ||| b1 <<< 4) <<< 8 ||| (a2 ||| b2 <<< 4) <<< 16 ||| (a3 ||| b3 <<< 4) <<< 24 := by
  rw [BitVec.shiftLeft_or_distrib, BitVec.shiftLeft_or_distrib, BitVec.shiftLeft_or_distrib, BitVec.shiftLeft_zero,
    ← BitVec.shiftLeft_add, ← BitVec.shiftLeft_add, ← BitVec.shiftLeft_add]
  simp only [BitVec.or_assoc]

theorem joinDigits_bytes (x0 x1 x2 x3 : Byte) :
    bytesOfWord (joinDigits (x3.toNat / 16) (x3.toNat % 16) (x2.toNat / 16) (x2.toNat % 16) (x1.toNat / 16) (x1.toNat % 16)
      (x0.toNat / 16) (x0.toNat % 16)) = #v[x0, x1, x2, x3] := by
  have key : joinDigits (x3.toNat / 16) (x3.toNat % 16) (x2.toNat / 16) (x2.toNat % 16) (x1.toNat / 16) (x1.toNat % 16)
      (x0.toNat / 16) (x0.toNat % 16)
      = x0.setWidth 32 ||| x1.setWidth 32 <<< 8 ||| x2.setWidth 32 <<< 16 ||| x3.setWidth 32 <<< 24 := by
    rw [← nibbles x0, ← nibbles x1, ← nibbles x2, ← nibbles x3, ← shifts]
    unfold joinDigits
    rfl
  generalize joinDigits (x3.toNat / 16) (x3.toNat % 16) (x2.toNat / 16) (x2.toNat % 16) (x1.toNat / 16) (x1.toNat % 16)
      (x0.toNat / 16) (x0.toNat % 16) = s at key ⊢
  obtain ⟨h0, h1, h2, h3⟩ := join4 x0 x1 x2 x3 s key
  unfold bytesOfWord
  simp only [h0, h1, h2, h3]

theorem hexToAddr_digits {n0 n1 n2 n3 n4 n5 n6 n7 : Nat} (h0 : n0 < 16) (h1 : n1 < 16) (h2 : n2 < 16) (h3 : n3 < 16)
    (h4 : n4 < 16) (h5 : n5 < 16) (h6 : n6 < 16) (h7 : n7 < 16) :
    hexToAddr [hexDigitUpper n0, hexDigitUpper n1, hexDigitUpper n2, hexDigitUpper n3, hexDigitUpper n4,
      hexDigitUpper n5, hexDigitUpper n6, hexDigitUpper n7] =
      Addr.ofIn (in4 (bytesOfWord (joinDigits n0 n1 n2 n3 n4 n5 n6 n7))) := by
  simp only [hexToAddr, hexToNumber_of h0, hexToNumber_of h1, hexToNumber_of h2, hexToNumber_of h3, hexToNumber_of h4,
    hexToNumber_of h5, hexToNumber_of h6, hexToNumber_of h7, Res.bind_ok, in4]

theorem hexToAddr_eight (x0 x1 x2 x3 : Byte) :
    hexToAddr [hexDigitUpper (x3.toNat / 16), hexDigitUpper (x3.toNat % 16), hexDigitUpper (x2.toNat / 16),
      hexDigitUpper (x2.toNat % 16), hexDigitUpper (x1.toNat / 16), hexDigitUpper (x1.toNat % 16),
      hexDigitUpper (x0.toNat / 16), hexDigitUpper (x0.toNat % 16)] = Addr.ofIn (in4 #v[x0, x1, x2, x3]) := by
  have l0 := x0.isLt
  have l1 := x1.isLt
  have l2 := x2.isLt
  have l3 := x3.isLt
  rw [hexToAddr_digits (by omega) (by omega) (by omega) (by omega) (by omega) (by omega) (by omega) (by omega),
    joinDigits_bytes]

theorem hexToAddr_little (b : Bytes4) : hexToAddr (hexLittle b) = Addr.ofIn (in4 b) := by
  have hb : b = #v[b[0], b[1], b[2], b[3]] := by
    apply Vector.ext
    intro i hi
    have : i = 0 ∨ i = 1 ∨ i = 2 ∨ i = 3 := by omega
    rcases this with rfl | rfl | rfl | rfl <;> rfl
  refine (hexToAddr_eight b[0] b[1] b[2] b[3]).trans ?_
  rw [← hb]

theorem hexLittle_ne (b : Bytes4) : hexLittle b ≠ [] := by
  unfold hexLittle hexByteUpper
  simp

end Route

end Verif
