import Verif.SpecText
import Verif.Lemmas.InetText
import Verif.Lemmas.Net
import Verif.Model.AddrText

/-!
# Lemmas about the printing functions
-/

namespace Verif

open Spec Inet

theorem decStr_dec (n : Nat) : decStr n = dec n := numStr_toDigits (by omega) (by omega) n
theorem hexStr_hex (n : Nat) : hexStr n = hex n := numStr_toDigits (by omega) (by omega) n

theorem decStr_inj {m n : Nat} (h : decStr m = decStr n) : m = n := by
  rw [decStr_dec, decStr_dec] at h
  have := congrArg (fun s => Nat.ofDigitChars 10 s 0) h
  simpa [dec, Nat.ofDigitChars_ten_toDigits] using this

theorem groups_colonHex (ws : List Nat) : groups ws = colonHex ws := by
  cases ws with
  | nil => rfl
  | cons w ws =>
    induction ws generalizing w with
    | nil => simp [groups, colonHex, hexStr_hex]
    | cons w' ws ih =>
      rw [groups, ih, hexStr_hex]
      simp [colonHex]

theorem value_two (x y : Byte) : value [x, y] = x.toNat * 256 + y.toNat := by simp [value]; omega

theorem words_hextets (b : Bytes16) : words b = hextets (ip b) := by
  obtain ⟨b0, b1, b2, b3, b4, b5, b6, b7, b8, b9, b10, b11, b12, b13, b14, b15, rfl⟩ := bytes16_cases b
  have n0 := value_mid [] [b0, b1] [b2, b3, b4, b5, b6, b7, b8, b9, b10, b11, b12, b13, b14, b15]
  have n1 := value_mid [b0, b1] [b2, b3] [b4, b5, b6, b7, b8, b9, b10, b11, b12, b13, b14, b15]
  have n2 := value_mid [b0, b1, b2, b3] [b4, b5] [b6, b7, b8, b9, b10, b11, b12, b13, b14, b15]
  have n3 := value_mid [b0, b1, b2, b3, b4, b5] [b6, b7] [b8, b9, b10, b11, b12, b13, b14, b15]
  have n4 := value_mid [b0, b1, b2, b3, b4, b5, b6, b7] [b8, b9] [b10, b11, b12, b13, b14, b15]
  have n5 := value_mid [b0, b1, b2, b3, b4, b5, b6, b7, b8, b9] [b10, b11] [b12, b13, b14, b15]
  have n6 := value_mid [b0, b1, b2, b3, b4, b5, b6, b7, b8, b9, b10, b11] [b12, b13] [b14, b15]
  have n7 := (value_split [b0, b1, b2, b3, b4, b5, b6, b7, b8, b9, b10, b11, b12, b13] [b14, b15]).2
  rw [value_two] at n0 n1 n2 n3 n4 n5 n6 n7
  simp only [List.length_cons, List.length_nil, Nat.zero_add, List.cons_append, List.nil_append, Nat.reduceAdd, Nat.reducePow] at n0 n1 n2 n3 n4 n5 n6 n7
  have hv : ip #v[b0, b1, b2, b3, b4, b5, b6, b7, b8, b9, b10, b11, b12, b13, b14, b15]
      = value [b0, b1, b2, b3, b4, b5, b6, b7, b8, b9, b10, b11, b12, b13, b14, b15] := rfl
  unfold hextets
  rw [hv]
  simp only [Nat.reducePow]
  rw [n0, n1, n2, n3, n4, n5, n6, n7]
  rfl

theorem ntop4_dotted (b : Bytes4) : ntop4 b = dotted (ip4 b) := by
  have hb : b.toList = [b[0], b[1], b[2], b[3]] := by
    apply List.ext_getElem
    · simp
    · intro i h1 h2
      have : i = 0 ∨ i = 1 ∨ i = 2 ∨ i = 3 := by simp at h1; omega
      rcases this with rfl | rfl | rfl | rfl <;> rfl
  have h0 := b[0].isLt
  have h1 := b[1].isLt
  have h2 := b[2].isLt
  have h3 := b[3].isLt
  have hv : ip4 b = ((b[0].toNat * 256 + b[1].toNat) * 256 + b[2].toNat) * 256 + b[3].toNat := by
    rw [ip4, hb]; simp [value]; omega
  unfold dotted
  rw [show ip4 b / 2 ^ 24 % 256 = b[0].toNat by omega, show ip4 b / 2 ^ 16 % 256 = b[1].toNat by omega,
    show ip4 b / 2 ^ 8 % 256 = b[2].toNat by omega, show ip4 b % 256 = b[3].toNat by omega]
  simp only [ntop4, decStr_dec, List.append_assoc, List.cons_append]

theorem ip4_last4 (b : Bytes16) : ip4 (last4 b) = ip b % 2 ^ 32 := by
  obtain ⟨b0, b1, b2, b3, b4, b5, b6, b7, b8, b9, b10, b11, b12, b13, b14, b15, rfl⟩ := bytes16_cases b
  have := (value_split [b0, b1, b2, b3, b4, b5, b6, b7, b8, b9, b10, b11] [b12, b13, b14, b15]).2
  rw [show (2 : Nat) ^ 32 = 256 ^ 4 by decide]
  exact this.symm

theorem last4_inj {a b : Bytes16} (ha : isV4 (ip a)) (hb : isV4 (ip b)) (h : last4 a = last4 b) : a = b := by
  apply ip_inj
  have h1 := ip4_last4 a
  have h2 := ip4_last4 b
  rw [h, h2] at h1
  rw [isV4_iff_div] at ha hb
  omega

/-- The last groups give the value of the compressed forms. -/
theorem compat_lt {b : Bytes16} {x y : Nat} (h : words b = List.replicate 6 0 ++ [x, y]) : ip b < 2 ^ 32 := by
  rw [words_hextets] at h
  have hlt := ip_lt b
  unfold hextets at h
  simp only [List.replicate_succ, List.replicate_zero, List.cons_append, List.nil_append, List.cons.injEq] at h
  obtain ⟨h1, h2, h3, h4, h5, h6, _⟩ := h
  omega

theorem mapped_v4 {b : Bytes16} {x y : Nat} (h : words b = List.replicate 5 0 ++ [0xFFFF, x, y]) : isV4 (ip b) := by
  rw [words_hextets] at h
  rw [isV4_iff_div]
  have hlt := ip_lt b
  unfold hextets at h
  simp only [List.replicate_succ, List.replicate_zero, List.cons_append, List.nil_append, List.cons.injEq] at h
  obtain ⟨h1, h2, h3, h4, h5, h6, _⟩ := h
  omega

/-- A run of zeros read from a decomposition. -/
theorem zeros_of_split {ws pre post : List Nat} {z : Nat} (h : ws = pre ++ List.replicate z 0 ++ post) :
    ∀ j, pre.length ≤ j → j < pre.length + z → ws[j]? = some 0 := by
  intro j h1 h2
  rw [h, List.append_assoc, List.getElem?_append_right h1, List.getElem?_append_left (by simp; omega)]
  rw [List.getElem?_replicate, if_pos (by omega)]

theorem ntop6_text (b : Bytes16) : Text6 (ip b) (ntop6 b) := by
  cases ntop6_shape b with
  | full hno h =>
    rw [h, groups_colonHex, words_hextets]
    refine .full fun pre post e => ?_
    exact hno pre.length 2 (Nat.le_refl _) (zeros_of_split (post := post) (by rw [words_hextets, e]; simp [List.replicate]))
  | zip pre post l hl hw hb hd h =>
    rw [h, groups_colonHex, groups_colonHex]
    have hz := zeros_of_split (ws := words b) (pre := pre) (post := post) (z := l) (by rw [hw]; simp)
    have hlen : pre.length + l ≤ 8 := by
      have := congrArg List.length hw
      simp [words] at this
      omega
    have hlt := ip_lt b
    have := Text6.zip (v := ip b) pre post l hl (by rw [← words_hextets, hw]; simp) ?_ ?_ ?_
    · simpa using this
    · intro pre' z' post' e
      by_cases h2 : 2 ≤ z'
      · exact hb pre'.length z' h2 (zeros_of_split (by rw [words_hextets, e]))
      · exact ⟨by omega, by omega⟩
    · rintro ⟨h1, h2⟩
      have e : words b = [0, 0, 0, 0, 0, 0, ip b / 2 ^ 16 % 65536, ip b % 65536] := by
        rw [words_hextets]
        unfold hextets
        simp only [List.cons.injEq, and_true]
        omega
      have h6 := (hb 0 6 (by omega) (zeros_of_split (pre := []) (z := 6) (post := [ip b / 2 ^ 16 % 65536, ip b % 65536]) e)).1
      by_cases hc : 6 < pre.length + l
      · have := hz 6 (by omega) hc
        rw [e] at this
        simp at this
        omega
      · exact hd ⟨by omega, Or.inl (by omega)⟩
    · intro hv
      rw [isV4_iff_div] at hv
      have e : words b = [0, 0, 0, 0, 0, 0xFFFF, ip b / 2 ^ 16 % 65536, ip b % 65536] := by
        rw [words_hextets]
        unfold hextets
        simp only [List.cons.injEq, and_true]
        omega
      have h5 := (hb 0 5 (by omega) (zeros_of_split (pre := []) (z := 5)
        (post := [0xFFFF, ip b / 2 ^ 16 % 65536, ip b % 65536]) e)).1
      by_cases hc : 5 < pre.length + l
      · have := hz 5 (by omega) hc
        rw [e] at this
        simp at this
      · exact hd ⟨by omega, Or.inr ⟨by omega, by rw [e]; rfl⟩⟩
  | compat x y hx hw h =>
    have hlt := compat_lt hw
    rw [h, ntop4_dotted, ip4_last4, Nat.mod_eq_of_lt hlt]
    refine .compat ⟨?_, hlt⟩
    rw [words_hextets] at hw
    unfold hextets at hw
    simp only [List.replicate_succ, List.replicate_zero, List.cons_append, List.nil_append, List.cons.injEq] at hw
    obtain ⟨_, _, _, _, _, _, h7, _⟩ := hw
    omega
  | mapped x y hw h =>
    have hv := mapped_v4 hw
    rw [h, ntop4_dotted, ip4_last4]
    have := Text6.mapped hv
    have e : hexStr 0xFFFF = "ffff".toList := by decide +kernel
    rw [e]
    simpa using this

/-- The text before the first occurrence of a character which it does not contain. -/
theorem cut_inj {c : Char} {s t u v : Str} (hs : c ∉ s) (ht : c ∉ t) (h : s ++ c :: u = t ++ c :: v) : s = t ∧ u = v := by
  induction s generalizing t with
  | nil =>
    cases t with
    | nil => simpa using h
    | cons d t =>
      simp only [List.nil_append, List.cons_append, List.cons.injEq] at h
      exact absurd (by simp [h.1]) ht
  | cons d s ih =>
    cases t with
    | nil =>
      simp only [List.nil_append, List.cons_append, List.cons.injEq] at h
      exact absurd (by simp [h.1]) hs
    | cons e t =>
      simp only [List.cons_append, List.cons.injEq] at h
      have := ih (fun m => hs (List.mem_cons_of_mem _ m)) (fun m => ht (List.mem_cons_of_mem _ m)) h.2
      exact ⟨by rw [h.1, this.1], this.2⟩

end Verif
