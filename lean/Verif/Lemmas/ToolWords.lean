import Verif.SpecTools
import Verif.Lemmas.AddrText
import Verif.Props.ValidateIpMask

/-!
# Lemmas: the columns which the tools write
-/

namespace Verif

open Spec Tools Inet

theorem fields_sep (p : Char → Bool) (s t : Str) (c : Char) (hs : ∀ x ∈ s, p x = false) (hc : p c = true) :
    fields p (s ++ c :: t) = s :: fields p t := by
  induction s with
  | nil => rw [List.nil_append, fields, if_pos hc]
  | cons x s ih =>
    have hx := hs x List.mem_cons_self
    have := ih fun y hy => hs y (List.mem_cons_of_mem _ hy)
    rw [List.cons_append, fields, if_neg (by rw [hx]; exact Bool.false_ne_true), this]
    rfl

theorem words_sep (s t : Str) (h : ' ' ∉ s) (hs : s ≠ []) : wordsOf (s ++ ' ' :: t) = s :: wordsOf t := by
  rw [wordsOf, fields_sep _ _ _ _ (fun x hx => by rw [beq_eq_false_iff_ne]; exact fun h' => h (h' ▸ hx)) rfl,
    List.filter_cons_of_pos (by simpa using hs)]
  rfl

theorem words_blanks (n : Nat) (t : Str) : wordsOf (List.replicate n ' ' ++ t) = wordsOf t := by
  induction n with
  | zero => rfl
  | succ n ih =>
    rw [List.replicate_succ, List.cons_append, wordsOf, fields, if_pos (by decide), List.filter_cons_of_neg (by simp)]
    exact ih

/-- Columns which are wide enough: the words are the values. -/
theorem words_columns (l : List (Nat × Str)) (h : ∀ x ∈ l, x.2 ≠ [] ∧ ' ' ∉ x.2 ∧ x.2.length < x.1) :
    wordsOf (l.flatMap fun x => setw x.1 x.2) = l.map (·.2) := by
  induction l with
  | nil => rfl
  | cons x l ih =>
    obtain ⟨h1, h2, h3⟩ := h x List.mem_cons_self
    rw [List.flatMap_cons, List.map_cons, setw, ← ih fun y hy => h y (List.mem_cons_of_mem _ hy)]
    obtain ⟨k, hk⟩ : ∃ k, x.1 - x.2.length = k + 1 := ⟨x.1 - x.2.length - 1, by omega⟩
    rw [hk, List.replicate_succ, List.append_assoc, List.cons_append, words_sep _ _ h2 h1, words_blanks]

theorem fields_ne (p : Char → Bool) : ∀ s, fields p s ≠ []
  | [] => List.cons_ne_nil _ _
  | x :: s => by
    rw [fields]
    split <;> exact List.cons_ne_nil _ _

theorem fields_prefix (p : Char → Bool) (s t : Str) (hs : ∀ x ∈ s, p x = false) :
    fields p (s ++ t) = (s ++ (fields p t).headD []) :: (fields p t).tail := by
  induction s with
  | nil =>
    rw [List.nil_append, List.nil_append]
    cases h : fields p t with
    | nil => exact absurd h (fields_ne p t)
    | cons _ _ => rfl
  | cons x s ih =>
    rw [List.cons_append, fields, if_neg (by rw [hs x List.mem_cons_self]; exact Bool.false_ne_true),
      ih fun y hy => hs y (List.mem_cons_of_mem _ hy)]
    rfl

/-- The words of columns, wide enough or not. -/
theorem words_together (l : List (Nat × Str)) (h : ∀ x ∈ l, x.2 ≠ [] ∧ ' ' ∉ x.2) :
    wordsOf (l.flatMap fun x => setw x.1 x.2) = runTogether l := by
  induction l with
  | nil => rfl
  | cons x l ih =>
    obtain ⟨h1, h2⟩ := h x List.mem_cons_self
    have ih := ih fun y hy => h y (List.mem_cons_of_mem _ hy)
    rw [List.flatMap_cons, setw, runTogether]
    by_cases hf : x.2.length < x.1
    · rw [if_pos hf, ← ih]
      obtain ⟨k, hk⟩ : ∃ k, x.1 - x.2.length = k + 1 := ⟨x.1 - x.2.length - 1, by omega⟩
      rw [hk, List.replicate_succ, List.append_assoc, List.cons_append, words_sep _ _ h2 h1, words_blanks]
    · rw [if_neg hf, ← ih, show x.1 - x.2.length = 0 by omega, List.replicate_zero, List.append_nil]
      have hp : ∀ c ∈ x.2, (c == ' ') = false := fun c hc => by
        rw [beq_eq_false_iff_ne]
        exact fun e => h2 (e ▸ hc)
      rw [wordsOf, fields_prefix _ _ _ hp, List.filter_cons_of_pos (by simpa using Or.inl h1)]
      cases l with
      | nil =>
        rw [List.flatMap_nil, show wordsOf [] = [] from rfl, fields]
        simp
      | cons y l =>
        obtain ⟨h3, h4⟩ := h y (List.mem_cons_of_mem _ List.mem_cons_self)
        have hq : ∀ c ∈ y.2, (c == ' ') = false := fun c hc => by
          rw [beq_eq_false_iff_ne]
          exact fun e => h4 (e ▸ hc)
        rw [wordsOf, List.flatMap_cons, setw, List.append_assoc, fields_prefix _ _ _ hq, List.headD_cons, List.tail_cons,
          List.filter_cons_of_pos (by simpa using Or.inl h3)]

theorem together_length (l : List (Nat × Str)) : (runTogether l).length ≤ l.length := by
  induction l with
  | nil => exact Nat.le_refl _
  | cons x l ih =>
    rw [runTogether]
    split
    · simpa using ih
    · split
      · simp
      · rename_i e
        rw [e] at ih
        simp only [List.length_cons] at ih ⊢
        omega

theorem together_ne {l : List (Nat × Str)} (h : l ≠ []) : runTogether l ≠ [] := by
  cases l with
  | nil => exact absurd rfl h
  | cons x l =>
    rw [runTogether]
    split
    · exact List.cons_ne_nil _ _
    · split <;> exact List.cons_ne_nil _ _

/-- The words are as many as the columns exactly when every value but the last one leaves a blank. -/
theorem together_iff (l : List (Nat × Str)) : (runTogether l).length = l.length ↔ ∀ x ∈ l.dropLast, x.2.length < x.1 := by
  induction l with
  | nil => exact ⟨fun _ _ h => (nomatch h), fun _ => rfl⟩
  | cons x l ih =>
    cases l with
    | nil =>
      refine ⟨fun _ _ h => (nomatch h), fun _ => ?_⟩
      rw [runTogether]
      split <;> rfl
    | cons y l =>
      rw [List.dropLast_cons_cons, runTogether]
      by_cases hf : x.2.length < x.1
      · rw [if_pos hf, List.length_cons, List.length_cons, Nat.add_right_cancel_iff, ih]
        exact ⟨fun h z hz => (List.mem_cons.1 hz).elim (fun e => e ▸ hf) (h z), fun h z hz => h z (List.mem_cons_of_mem _ hz)⟩
      · rw [if_neg hf]
        have hl := together_length (y :: l)
        refine ⟨fun h => ?_, fun h => absurd (h x List.mem_cons_self) hf⟩
        cases e : runTogether (y :: l) with
        | nil => exact absurd e (together_ne (List.cons_ne_nil _ _))
        | cons w ws =>
          rw [e] at h hl
          simp only [List.length_cons] at h hl
          omega

theorem together_fits (l : List (Nat × Str)) (h : ∀ x ∈ l.dropLast, x.2.length < x.1) : runTogether l = l.map (·.2) := by
  induction l with
  | nil => rfl
  | cons x l ih =>
    cases l with
    | nil =>
      rw [runTogether]
      split <;> rfl
    | cons y l =>
      rw [List.dropLast_cons_cons] at h
      rw [runTogether, if_pos (h x List.mem_cons_self), ih fun z hz => h z (List.mem_cons_of_mem _ hz)]
      rfl

theorem columns_newline (l : List (Nat × Str)) (h : ∀ x ∈ l, '\n' ∉ x.2) : '\n' ∉ l.flatMap fun x => setw x.1 x.2 := by
  intro hc
  obtain ⟨x, hx, hm⟩ := List.mem_flatMap.1 hc
  rcases List.mem_append.1 hm with hm | hm
  · exact h x hx hm
  · exact absurd (List.eq_of_mem_replicate hm) (by decide)

theorem isWord_of_chars {s t : Str} (h : s ≠ []) (hs : ∀ c ∈ s, c ∈ t) (h1 : ' ' ∉ t) (h2 : '\n' ∉ t) : IsWord s :=
  ⟨h, fun hc => h1 (hs _ hc), fun hc => h2 (hs _ hc)⟩

theorem dec_word (n : Nat) : IsWord (dec n) := by
  refine isWord_of_chars (List.ne_nil_of_length_pos Nat.length_toDigits_pos) (t := "0123456789".toList) ?_ (by decide) (by decide)
  rw [← decStr_dec]
  exact Inet.decStr_chars n

theorem ntop4_word (b : Bytes4) : IsWord (Inet.ntop4 b) := by
  refine isWord_of_chars ?_ (Inet.ntop4_chars b) (by decide) (by decide)
  rw [Inet.ntop4]
  simp

theorem ntop6_word (b : Bytes16) : IsWord (Inet.ntop6 b) := by
  refine isWord_of_chars ?_ (Inet.ntop6_chars b) (by decide) (by decide)
  intro h
  have := Inet.pton6_ntop6 b
  rw [h] at this
  exact absurd this (by rw [show Inet.pton6 [] = none by decide +kernel]; exact fun h => nomatch h)

/-- The address of an interface. -/
theorem address_word (db : NetDb) (a : Addr) :
    ∃ s, a.toIpv4or6String db STRING_IP_ADDRESS = .ok s ∧ AddressWord (ip a.getIpv6.addr) s ∧ IsWord s ∧ s.length < 41
      ∧ (isV4 (ip a.getIpv6.addr) → s.length < 16) := by
  by_cases h : isV4 (ip a.getIpv6.addr)
  · have hv : a.isIpv4 = true := (isIpv4_iff a).2 h
    refine ⟨Inet.ntop4 (last4 a.bytes), by rw [Addr.toIpv4or6String, if_pos hv, toIpv4String_address, if_pos hv],
      ⟨fun _ => by rw [ntop4_dotted, ip4_last4]; rfl, fun h' => absurd h h'⟩, ntop4_word _, ?_, fun _ => ?_⟩ <;>
      (have := Inet.ntop4_length (last4 a.bytes); omega)
  · have hv : ¬ a.isIpv4 = true := fun h' => h ((isIpv4_iff a).1 h')
    obtain ⟨s, h1, h2, h3⟩ := C22_ipv6_text db a h
    have e : s = Inet.ntop6 a.bytes := C22_canonical_unique h2 (ntop6_text a.bytes)
    refine ⟨s, by rw [Addr.toIpv4or6String, if_neg hv, h1], ⟨fun h' => absurd h' h, fun _ => h2⟩, by rw [e]; exact ntop6_word _, ?_,
      fun h' => absurd h' h⟩
    rw [e]
    have := Inet.ntop6_length a.bytes
    omega

theorem text6_zero : Text6 0 "::".toList := by
  have := ntop6_text (Vector.replicate 16 0)
  rw [show ip (Vector.replicate 16 0) = 0 by decide +kernel, show Inet.ntop6 (Vector.replicate 16 0) = "::".toList by decide +kernel] at this
  exact this

/-- The broadcast or destination address of an interface. -/
theorem optional_word (db : NetDb) (o : IfacesOptions) (a b : Addr) :
    ∃ s, b.toIpv4or6String db (ifacesMode o a) = .ok s
      ∧ OptionalWord (o.asterisk = true) (isV4 (ip a.getIpv6.addr)) (ip b.getIpv6.addr) s ∧ IsWord s ∧ s.length < 41 := by
  have hmode : ∀ x y : Bool, let m := STRING_IP_ADDRESS ||| (if x then STRING_IP_DEFAULT_AS_ASTERISK else 0)
      ||| (if y then STRING_IP_DEFAULT_AS_IPV4 else 0)
      anyOf m (STRING_IP_ADDRESS ||| STRING_IP_BRACKET_ADDRESS) = true
      ∧ anyOf m (STRING_IP_PORT ||| STRING_IP_PORT_NAME) = false
      ∧ anyOf m STRING_IP_DEFAULT_AS_ASTERISK = x
      ∧ anyOf m STRING_IP_DEFAULT_AS_IPV4 = y
      ∧ Addr.includeBrackets m = false
      ∧ anyOf m (STRING_IP_MASK ||| STRING_IP_BRACKET_MASK ||| STRING_IP_MASK_AS_ADDRESS ||| STRING_IP_MASK_IF_NEEDED)
        = false := by decide
  obtain ⟨f1, f2, f3, f4, f5, f6⟩ := hmode o.asterisk a.isIpv4
  rw [← ifacesMode] at f1 f2 f3 f4 f5 f6
  generalize ifacesMode o a = m at f1 f2 f3 f4 f5 f6
  have ha : a.isIpv4 = true ↔ isV4 (ip a.getIpv6.addr) := isIpv4_iff a
  have hd : b.isDefault = true ↔ isAny (ip b.getIpv6.addr) := isDefault_iff b
  by_cases h : isV4 (ip b.getIpv6.addr)
  · have hv : b.isIpv4 = true := (isIpv4_iff b).2 h
    have hz : ip b.getIpv6.addr ≠ 0 := by
      intro h'
      rw [h'] at h
      exact absurd h (by decide)
    have e : b.toIpv4or6String db m = .ok (if (o.asterisk && b.isDefault) = true then ['*'] else Inet.ntop4 (last4 b.bytes)) := by
      rw [Addr.toIpv4or6String, if_pos hv]
      simp only [Addr.toIpv4String, Addr.addressPart4, Addr.portPart, Addr.maskPart4, Addr.wantsMask, f1, f2, f3, f6, hv]
      cases o.asterisk && b.isDefault <;> simp [last4]
    refine ⟨_, e, ?_⟩
    by_cases hs : (o.asterisk && b.isDefault) = true
    · rw [if_pos hs]
      obtain ⟨hs1, hs2⟩ := Bool.and_eq_true_iff.1 hs
      exact ⟨⟨fun _ => rfl, fun h' => absurd hs1 h'.1, fun h' => absurd ⟨hd.1 hs2, hs1⟩ h'⟩, by unfold IsWord; decide, by decide⟩
    · rw [if_neg hs]
      refine ⟨⟨fun h' => absurd (Bool.and_eq_true_iff.2 ⟨h'.1, hd.2 h'.2⟩) hs, fun h' => absurd h'.2.1 hz, fun _ _ =>
        ⟨fun _ => by rw [ntop4_dotted, ip4_last4]; rfl, fun h' => absurd h h'⟩⟩, ntop4_word _, ?_⟩
      have := Inet.ntop4_length (last4 b.bytes)
      omega
  · have hv : ¬ b.isIpv4 = true := fun h' => h ((isIpv4_iff b).1 h')
    have e : b.toIpv4or6String db m = .ok (if b.isDefault = true then
        (if o.asterisk = true then "*".toList else if a.isIpv4 = true then "0.0.0.0".toList else "::".toList)
        else Inet.ntop6 b.bytes) := by
      rw [Addr.toIpv4or6String, if_neg hv]
      simp only [Addr.toIpv6String, Addr.addressPart6, Addr.portPart, Addr.maskPart6, Addr.wantsMask, f1, f2, f3, f4, f5, f6]
      cases b.isDefault <;> cases o.asterisk <;> cases a.isIpv4 <;> simp [Addr.bracketed]
    refine ⟨_, e, ?_⟩
    by_cases hb : b.isDefault = true
    · have hz : ip b.getIpv6.addr = 0 := by
        rcases hd.1 hb with h' | h'
        · rw [h'] at h; exact absurd (by decide +kernel) h
        · exact h'
      rw [if_pos hb]
      by_cases hs : o.asterisk = true
      · rw [if_pos hs]
        exact ⟨⟨fun _ => rfl, fun h' => absurd hs h'.1, fun h' => absurd ⟨hd.1 hb, hs⟩ h'⟩, by unfold IsWord; decide, by decide⟩
      · rw [if_neg hs]
        by_cases h4 : a.isIpv4 = true
        · rw [if_pos h4]
          exact ⟨⟨fun h' => absurd h'.1 hs, fun _ => rfl, fun _ h' => absurd ⟨hz, ha.1 h4⟩ h'⟩, by unfold IsWord; decide, by decide⟩
        · rw [if_neg h4]
          refine ⟨⟨fun h' => absurd h'.1 hs, fun h' => absurd (ha.2 h'.2.2) h4, fun _ _ => ⟨fun h' => absurd h' h, fun _ => ?_⟩⟩,
            by unfold IsWord; decide, by decide⟩
          rw [hz]
          exact text6_zero
    · rw [if_neg hb]
      refine ⟨⟨fun h' => absurd (hd.2 h'.2) hb, fun h' => absurd (hd.2 (by rw [h'.2.1]; exact Or.inr rfl)) hb, fun _ _ =>
        ⟨fun h' => absurd h' h, fun _ => ntop6_text b.bytes⟩⟩, ntop6_word _, ?_⟩
      have := Inet.ntop6_length b.bytes
      omega

end Verif
