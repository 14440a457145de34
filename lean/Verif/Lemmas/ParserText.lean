import Verif.Lemmas.Parser

/-!
# Lemmas about the parser: cutting the input
-/

namespace Verif.Parser

/-! ## `splitFirst` -/

theorem splitFirst_none {c : Char} {s : Str} : splitFirst c s = none ↔ c ∉ s := by
  induction s with
  | nil => simp [splitFirst]
  | cons x s ih =>
    rw [splitFirst]
    by_cases h : x = c
    · simp [h]
    · rw [if_neg h, Option.map_eq_none_iff, ih]
      simp [Ne.symm h]

theorem splitFirst_append {c : Char} {a b : Str} (h : c ∉ a) : splitFirst c (a ++ c :: b) = some (a, b) := by
  induction a with
  | nil => simp [splitFirst]
  | cons x a ih =>
    simp only [List.mem_cons, not_or] at h
    rw [List.cons_append, splitFirst, if_neg (Ne.symm h.1), ih h.2]
    rfl

theorem splitFirst_some {c : Char} {s a b : Str} (h : splitFirst c s = some (a, b)) : s = a ++ c :: b ∧ c ∉ a := by
  induction s generalizing a b with
  | nil => simp [splitFirst] at h
  | cons x s ih =>
    rw [splitFirst] at h
    by_cases hx : x = c
    · rw [if_pos hx] at h
      cases h
      simp [hx]
    · rw [if_neg hx, Option.map_eq_some_iff] at h
      obtain ⟨⟨a', b'⟩, h1, h2⟩ := h
      cases h2
      obtain ⟨h3, h4⟩ := ih h1
      refine ⟨by simp [h3], ?_⟩
      simp only [List.mem_cons, not_or]
      exact ⟨Ne.symm hx, h4⟩

/-! ## `trimString` -/

/-- Remove the spaces at the end. -/
def rtrim (s : Str) : Str := (s.reverse.dropWhile isSpace).reverse

theorem trimString_eq (s : Str) : trimString s = rtrim (s.dropWhile isSpace) := rfl

theorem rtrim_prefix (s : Str) : rtrim s <+: s := by
  rw [rtrim, ← List.reverse_suffix, List.reverse_reverse]
  exact List.dropWhile_suffix _

theorem dropWhile_eq_nil {s : Str} : s.dropWhile isSpace = [] ↔ ∀ c ∈ s, isSpace c = true := by
  induction s with
  | nil => simp
  | cons x l ih =>
    rw [List.dropWhile_cons]
    cases h : isSpace x <;> simp [h, ih]

theorem rtrim_eq_nil {s : Str} : rtrim s = [] ↔ ∀ c ∈ s, isSpace c = true := by
  simp [rtrim, dropWhile_eq_nil]

theorem rtrim_append_space (s t : Str) (h : ∀ c ∈ t, isSpace c = true) : rtrim (s ++ t) = rtrim s := by
  rw [rtrim, rtrim, List.reverse_append, List.dropWhile_append_of_pos]
  simpa using h

/-- The spaces which `rtrim` removes. -/
theorem rtrim_append (s : Str) : ∃ t, s = rtrim s ++ t ∧ ∀ c ∈ t, isSpace c = true := by
  refine ⟨(s.reverse.takeWhile isSpace).reverse, ?_, ?_⟩
  · rw [rtrim, ← List.reverse_append, List.takeWhile_append_dropWhile, List.reverse_reverse]
  · intro c hc
    rw [List.mem_reverse] at hc
    exact List.all_eq_true.1 (List.all_takeWhile) c hc

theorem rtrim_rtrim (s : Str) : rtrim (rtrim s) = rtrim s := by
  rw [rtrim, rtrim, List.reverse_reverse]
  congr 1
  cases h : s.reverse.dropWhile isSpace with
  | nil => rfl
  | cons x l =>
    rw [List.dropWhile_cons]
    have := List.head_dropWhile_not isSpace (l := s.reverse) (w := by simp [h])
    simp only [h, List.head_cons] at this
    simp [this]

theorem rtrim_self {s : Str} (h : ∀ c, s.getLast? = some c → isSpace c = false) : rtrim s = s := by
  rw [rtrim]
  cases hs : s.reverse with
  | nil => simpa using hs.symm
  | cons x l =>
    have hx : s.getLast? = some x := by rw [List.getLast?_eq_head?_reverse, hs]; rfl
    rw [List.dropWhile_cons, h x hx, if_neg (by simp), ← hs, List.reverse_reverse]

theorem dropWhile_self {s : Str} (h : ∀ c, s.head? = some c → isSpace c = false) : s.dropWhile isSpace = s := by
  cases s with
  | nil => rfl
  | cons x l => rw [List.dropWhile_cons, h x rfl, if_neg (by simp)]

/-- A text which has no space at either end is left alone. -/
theorem trimString_self {s : Str} (h1 : ∀ c, s.head? = some c → isSpace c = false)
    (h2 : ∀ c, s.getLast? = some c → isSpace c = false) : trimString s = s := by
  rw [trimString_eq, dropWhile_self h1, rtrim_self h2]

theorem dropWhile_head_not (s : Str) (c : Char) (h : (s.dropWhile isSpace).head? = some c) : isSpace c = false := by
  cases hd : s.dropWhile isSpace with
  | nil => rw [hd] at h; cases h
  | cons x l =>
    rw [hd] at h
    cases h
    have := List.head_dropWhile_not isSpace (l := s) (w := by simp [hd])
    simpa [hd] using this

theorem trimString_dropWhile (s : Str) : trimString (s.dropWhile isSpace) = trimString s := by
  rw [trimString_eq, trimString_eq, dropWhile_self (dropWhile_head_not s)]

theorem trimString_rtrim (s : Str) : trimString (rtrim s) = trimString s := by
  obtain ⟨t, h1, h2⟩ := rtrim_append s
  have hd : ∀ a : Str, trimString (a ++ t) = trimString a := by
    intro a
    rw [trimString_eq, trimString_eq, List.dropWhile_append]
    split
    · rename_i h
      have h : a.dropWhile isSpace = [] := by simpa using h
      rw [h]
      have : rtrim (t.dropWhile isSpace) = [] :=
        rtrim_eq_nil.2 (fun c hc => h2 c ((List.dropWhile_suffix _).subset hc))
      rw [this]
      rfl
    · exact rtrim_append_space _ _ h2
  conv => rhs; rw [h1]
  rw [hd]

theorem trimString_infix (s : Str) : trimString s <:+: s :=
  (rtrim_prefix _).isInfix.trans (List.dropWhile_suffix _).isInfix

theorem parseCidr_trim (env : ParseEnv) {a b : Str} (result : List Range) (h : trimString a = trimString b) :
    parseCidr env a result = parseCidr env b result := by
  unfold parseCidr
  rw [h]

/-! ## The branch without separators -/

theorem take_trimEnd (inp : Str) (n : Nat) (hn : n ≤ inp.length) :
    inp.take (trimEnd inp n) = rtrim (inp.take n) ∧ trimEnd inp n = (rtrim (inp.take n)).length := by
  have key : trimEnd inp n = (rtrim (inp.take n)).length := by
    induction n with
    | zero => simp [trimEnd, rtrim]
    | succ n ih =>
      have hlt : n < inp.length := by omega
      rw [trimEnd]
      have hg : inp.getD n ' ' = inp[n] := by simp [hlt]
      rw [hg, List.take_succ_eq_append_getElem hlt]
      by_cases hs : isSpace inp[n] = true
      · rw [if_pos hs, ih (by omega), rtrim_append_space]
        simpa using hs
      · rw [if_neg hs, rtrim_self]
        · simp
          omega
        · intro c hc
          rw [List.getLast?_append] at hc
          simp at hc
          rw [← hc]
          simpa using hs
  refine ⟨?_, key⟩
  rw [key]
  have hp : rtrim (inp.take n) <+: inp := (rtrim_prefix _).trans (List.take_prefix n inp)
  exact (List.prefix_iff_eq_take.1 hp).symm

/-- What is left of the input after its leading spaces, up to the first comment. -/
def singleBody (c : Config) (inp : Str) : Str :=
  if commentChars c ≠ [] then (inp.dropWhile isSpace).takeWhile fun x => !(commentChars c).contains x
  else inp.dropWhile isSpace

theorem drop_singleStart (inp : Str) : inp.drop (singleStart inp) = inp.dropWhile isSpace := by
  rw [singleStart]
  have h := List.takeWhile_append_dropWhile (p := isSpace) (l := inp)
  generalize inp.takeWhile isSpace = a at *
  generalize inp.dropWhile isSpace = b at *
  rw [← h]
  simp

theorem take_singleStart (inp : Str) : inp.take (singleStart inp) = inp.takeWhile isSpace := by
  rw [singleStart]
  have h := List.takeWhile_append_dropWhile (p := isSpace) (l := inp)
  generalize inp.takeWhile isSpace = a at *
  generalize inp.dropWhile isSpace = b at *
  rw [← h]
  simp

theorem singleStart_le (inp : Str) : singleStart inp ≤ inp.length := (List.takeWhile_prefix _).length_le

theorem singleBody_prefix (c : Config) (inp : Str) : singleBody c inp <+: inp.dropWhile isSpace := by
  rw [singleBody]
  split
  · exact List.takeWhile_prefix _
  · exact List.prefix_refl _

theorem singleEnd_eq (c : Config) (inp : Str) :
    singleEnd c inp = trimEnd inp (singleStart inp + (singleBody c inp).length)
      ∧ singleStart inp + (singleBody c inp).length ≤ inp.length := by
  have hl : inp.length = singleStart inp + (inp.dropWhile isSpace).length := by
    rw [← drop_singleStart, List.length_drop]
    have := singleStart_le inp
    omega
  have hle := (singleBody_prefix c inp).length_le
  refine ⟨?_, by omega⟩
  rw [singleEnd, drop_singleStart]
  congr 1
  rw [singleBody]
  split
  · rfl
  · exact hl

theorem rtrim_append_ne (s t : Str) (h : rtrim t ≠ []) : rtrim (s ++ t) = s ++ rtrim t := by
  have h' : t.reverse.dropWhile isSpace ≠ [] := by
    intro h0
    exact h (by rw [rtrim, h0]; rfl)
  rw [rtrim, rtrim, List.reverse_append, List.dropWhile_append, if_neg (by simpa using h'), List.reverse_append,
    List.reverse_reverse]

/-- The entry the branch without separators hands over: the text before the comment, or (when only spaces are before the
comment) the comment itself. -/
theorem parseSingle_eq (env : ParseEnv) (inp : Str) (result : List Range) (p : Parser)
    (hlen : inp.length < 2 ^ 64 ∨ commentChars p.config = []) :
    parseSingle env inp result p =
      parseCidr env (if singleBody p.config inp ≠ [] ∨ singleStart inp = 0 then singleBody p.config inp
        else inp.dropWhile isSpace) result p := by
  obtain ⟨he, hle⟩ := singleEnd_eq p.config inp
  obtain ⟨_, htl⟩ := take_trimEnd inp _ hle
  rw [← he] at htl
  obtain ⟨tl, hpre⟩ := singleBody_prefix p.config inp
  have hd := drop_singleStart inp
  have hsp : ∀ c ∈ inp.takeWhile isSpace, isSpace c = true := fun c hc => List.all_eq_true.1 List.all_takeWhile c hc
  have hinp : inp = inp.takeWhile isSpace ++ (singleBody p.config inp ++ tl) := by
    rw [hpre, List.takeWhile_append_dropWhile]
  have hs : singleStart inp = (inp.takeWhile isSpace).length := rfl
  have hb0 : ∀ c, (singleBody p.config inp).head? = some c → isSpace c = false := by
    intro c hc
    refine dropWhile_head_not inp c ?_
    rw [← hpre, List.head?_append, hc]
    rfl
  have hcomm : commentChars p.config = [] → singleBody p.config inp = inp.dropWhile isSpace := by
    intro h
    simp [singleBody, h]
  have htake : inp.take (singleStart inp + (singleBody p.config inp).length)
      = inp.takeWhile isSpace ++ singleBody p.config inp := by
    conv => lhs; arg 2; rw [hinp]
    rw [hs, ← List.length_append, ← List.append_assoc, List.take_left]
  rw [htake] at htl
  have hlen2 : inp.length = singleStart inp + (inp.dropWhile isSpace).length := by
    rw [← hd, List.length_drop]
    have := singleStart_le inp
    omega
  rw [parseSingle, PM.config_bind]
  have hsub : substr inp (singleStart inp) (subSize (singleEnd p.config inp) (singleStart inp))
      = .ok ((inp.dropWhile isSpace).take (subSize (singleEnd p.config inp) (singleStart inp))) := by
    rw [substr, if_neg (by have := singleStart_le inp; omega), hd]
  rw [hsub]
  generalize singleBody p.config inp = body at *
  generalize inp.takeWhile isSpace = sp at *
  generalize inp.dropWhile isSpace = d at *
  generalize singleStart inp = s at *
  generalize singleEnd p.config inp = ec at *
  by_cases hb : body = []
  · subst hb
    have hec : ec = 0 := by
      rw [htl, List.append_nil, rtrim_eq_nil.2 hsp]
      rfl
    subst hec
    by_cases h0 : s = 0
    · rw [if_pos (Or.inr h0)]
      subst h0
      split
      · simp [subSize]
      · rename_i h
        have : inp.length = 0 := by
          have := not_or.1 h
          omega
        rw [List.length_eq_zero_iff.1 this]
    · rw [if_neg (c := ([] : Str) ≠ [] ∨ s = 0) (by simp [h0]), if_pos (c := s ≠ 0 ∨ _) (Or.inl h0), PM.lift_ok_bind]
      congr 1
      rcases hlen with hlen | hlen
      · rw [List.take_of_length_le]
        rw [subSize, if_neg (by omega)]
        omega
      · rw [← hcomm hlen]
        simp
  · rw [if_pos (Or.inl hb)]
    have hrb : rtrim body ≠ [] := by
      intro h
      rw [rtrim_eq_nil] at h
      cases body with
      | nil => exact hb rfl
      | cons x l => simp [hb0 x rfl] at h
    rw [rtrim_append_ne _ _ hrb, List.length_append, ← hs] at htl
    have hsz : subSize ec s = (rtrim body).length := by
      rw [subSize, if_pos (by omega)]
      omega
    have hpd : rtrim body <+: d := (rtrim_prefix body).trans ⟨tl, hpre⟩
    split
    · rw [PM.lift_ok_bind, hsz, ← List.prefix_iff_eq_take.1 hpd]
      rw [parseCidr_trim env result (trimString_rtrim body)]
    · rename_i h
      obtain ⟨h1, h2⟩ := not_or.1 h
      have h1 : s = 0 := by omega
      have h2 : ec = inp.length := by omega
      have hdl : rtrim body = d := hpd.eq_of_length (by omega)
      have : sp = [] := List.length_eq_zero_iff.1 (by omega)
      have hin : inp = rtrim body := by rw [hinp, this, hdl, List.nil_append, hpre]
      rw [parseCidr_trim env result (a := inp) (b := body)]
      rw [hin, trimString_rtrim]

/-- Without separators and comments, the whole input is the entry. -/
theorem parseSingle_plain (env : ParseEnv) (inp : Str) (result : List Range) (p : Parser)
    (hc : commentChars p.config = []) : parseSingle env inp result p = parseCidr env inp result p := by
  rw [parseSingle_eq env inp result p (Or.inr hc)]
  have : singleBody p.config inp = inp.dropWhile isSpace := by simp [singleBody, hc]
  rw [this, ite_self, parseCidr_trim env result (trimString_dropWhile inp)]

end Verif.Parser
