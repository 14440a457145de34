import Verif.Props.RangePrint
import Verif.Props.RangeMask
import Verif.Props.ParserPrint

/-!
# Property C87 in the default mode: exactly which printed ranges are read back
-/

namespace Verif

open Spec Inet

/-! ### The text of a range in the default mode -/

/-- The text of an address: alone when it is an IPv4 one, between brackets otherwise. -/
theorem addressText_form (a : Addr) : ∃ t, AddressOf t (ip a.getIpv6.addr) ∧ (isV4 (ip a.getIpv6.addr) → addressText a = t ∧ ':' ∉ t)
    ∧ (¬ isV4 (ip a.getIpv6.addr) → addressText a = '[' :: t ++ [']'] ∧ 2 ≤ t.count ':') := by
  by_cases h : isV4 (ip a.getIpv6.addr)
  · obtain ⟨t1, c1⟩ := isV4_text (db := sampleDb) h
    exact ⟨_, t1, fun _ => ⟨by rw [addressText, if_pos ((isIpv4_iff a).2 h)], c1⟩, fun h' => absurd h h'⟩
  · have hv : a.isIpv4 = false := by rw [← Bool.not_eq_true, isIpv4_iff]; exact h
    obtain ⟨s, h1, h2⟩ := printed_address sampleDb a
    have hs : s = if a.isDefault then "::".toList else ntop6 a.bytes := by
      have f1 : anyOf STRING_IP_ADDRESS (STRING_IP_ADDRESS ||| STRING_IP_BRACKET_ADDRESS) = true := by decide
      have f2 : anyOf STRING_IP_ADDRESS STRING_IP_DEFAULT_AS_ASTERISK = false := by decide
      have f3 : anyOf STRING_IP_ADDRESS (STRING_IP_PORT ||| STRING_IP_PORT_NAME) = false := by decide
      have f4 : anyOf STRING_IP_ADDRESS (STRING_IP_MASK ||| STRING_IP_BRACKET_MASK ||| STRING_IP_MASK_AS_ADDRESS ||| STRING_IP_MASK_IF_NEEDED)
        = false := by decide
      have f5 : anyOf STRING_IP_ADDRESS STRING_IP_DEFAULT_AS_IPV4 = false := by decide
      have f6 : Addr.includeBrackets STRING_IP_ADDRESS = false := by decide
      simp only [Addr.toIpv4or6String, Addr.toIpv6String, Addr.addressPart6, Addr.portPart, Addr.maskPart6, Addr.wantsMask, Addr.bracketed,
        f1, f2, f3, f4, f5, f6, hv] at h1
      by_cases hd : a.isDefault = true
      · simp [hd] at h1 ⊢
        exact h1.symm
      · simp [hd] at h1 ⊢
        exact h1.symm
    refine ⟨s, h2, fun h' => absurd h' h, fun _ => ⟨by rw [addressText, hv, hs]; rfl, ?_⟩⟩
    rcases h2 with ⟨v, hv', _, e⟩ | ⟨_, h2⟩
    · exact absurd (e ▸ isV4_mapped hv') h
    · exact Parser.text_colons h2

theorem bracket_mode (db : NetDb) (a : Addr) :
    a.toIpv4or6String db (STRING_IP_ALL &&& (STRING_IP_ADDRESS ||| STRING_IP_BRACKET_ADDRESS)) = .ok (addressText a) := by
  have hmode : STRING_IP_ALL &&& (STRING_IP_ADDRESS ||| STRING_IP_BRACKET_ADDRESS) = STRING_IP_BRACKET_ADDRESS := by decide
  have f1 : anyOf STRING_IP_BRACKET_ADDRESS (STRING_IP_ADDRESS ||| STRING_IP_BRACKET_ADDRESS) = true := by decide
  have f2 : anyOf STRING_IP_BRACKET_ADDRESS STRING_IP_DEFAULT_AS_ASTERISK = false := by decide
  have f3 : anyOf STRING_IP_BRACKET_ADDRESS (STRING_IP_PORT ||| STRING_IP_PORT_NAME) = false := by decide
  have f4 : anyOf STRING_IP_BRACKET_ADDRESS (STRING_IP_MASK ||| STRING_IP_BRACKET_MASK ||| STRING_IP_MASK_AS_ADDRESS ||| STRING_IP_MASK_IF_NEEDED)
      = false := by decide
  have f5 : anyOf STRING_IP_BRACKET_ADDRESS STRING_IP_DEFAULT_AS_IPV4 = false := by decide
  have f6 : Addr.includeBrackets STRING_IP_BRACKET_ADDRESS = true := by decide
  rw [hmode]
  by_cases hv : a.isIpv4 = true
  · simp only [Addr.toIpv4or6String, Addr.toIpv4String, Addr.addressPart4, Addr.portPart, Addr.maskPart4, Addr.wantsMask, f1, f2, f3, f4, hv, addressText]
    simp [last4]
  · simp only [Bool.not_eq_true] at hv
    simp only [Addr.toIpv4or6String, Addr.toIpv6String, Addr.addressPart6, Addr.portPart, Addr.maskPart6, Addr.wantsMask, Addr.bracketed,
      f1, f2, f3, f4, f5, f6, hv, addressText]
    by_cases hd : a.isDefault = true <;> simp [hd]

theorem all_printed {db : NetDb} {a : Addr} {s : Str} (h : a.toIpv4or6String db STRING_IP_ALL = .ok s) :
    s = (addressText a ++ ':' :: dec a.getPort) ++ '/' :: maskText a := by
  have hc : a.isIpv4 = true → a.isMaskIpv4Compatible = true := by
    intro hv
    apply Decidable.byContradiction
    intro hn
    have hw : a.wantsMask STRING_IP_ALL = true := by
      obtain ⟨_, _, _, _, _, f6, _, _, f9, _⟩ := flags_all
      simp [Addr.wantsMask, f6, f9]
    have hne : ¬ (anyOf STRING_IP_ALL STRING_IP_PORT_NAME = true ∧ db.protoByNumber a.protocol = .notFound) := by
      rw [flags_all.2.2.1]; simp
    rw [(C57_throws_iff db STRING_IP_ALL a .unexpectedMask).2
      ⟨rfl, (isIpv4_iff a).1 hv, hne, hw, fun h' => hn ((maskCompatible_iff a).2 h')⟩] at h
    cases h
  rw [toIpv4or6String_all db a hc] at h
  rw [← Res.ok.inj h]
  simp

theorem hasAddresses_isEmpty {r : Range} (h : HasAddresses r) : r.isEmpty = false := by
  rw [← Bool.not_eq_true, isEmpty_iff]
  rintro ⟨h1, h2⟩
  have : ip r.hi.getIpv6.addr < ip r.lo.getIpv6.addr := h2
  have := h.2 h1
  omega

/-- The text of a range with a last address. -/
theorem range_printed {db : NetDb} {r : Range} {s : Str} (h : HasAddresses r) (ht : r.hasTo = true) (hs : r.toStr db STRING_IP_ALL = .ok s) :
    r.hi.toIpv4or6String db STRING_IP_ALL = .ok ((addressText r.hi ++ ':' :: dec r.hi.getPort) ++ '/' :: maskText r.hi)
      ∧ s = ((if r.hasFrom then addressText r.lo else []) ++ '-' :: (addressText r.hi ++ ':' :: dec r.hi.getPort)) ++ '/' :: maskText r.hi := by
  unfold Range.toStr at hs
  rw [hasAddresses_isEmpty h, ht, bracket_mode] at hs
  cases hh : r.hi.toIpv4or6String db STRING_IP_ALL with
  | ok t =>
    obtain rfl := all_printed hh
    refine ⟨rfl, ?_⟩
    rw [hh] at hs
    cases hf : r.hasFrom <;> rw [hf] at hs
    · have hs := Res.ok.inj hs
      rw [← hs]
      simp
    · have hs := Res.ok.inj hs
      rw [← hs]
      simp
  | throw e =>
    rw [hh] at hs
    cases hf : r.hasFrom <;> rw [hf] at hs <;> cases hs
  | ub =>
    rw [hh] at hs
    cases hf : r.hasFrom <;> rw [hf] at hs <;> cases hs

/-! ### The texts which are not those of ranges -/

theorem bracket_first {t u x y : Str} (ht : ']' ∉ t) (hu : ']' ∉ u) (h : t ++ ']' :: x = u ++ ']' :: y) : x = y := by
  induction t generalizing u with
  | nil =>
    cases u with
    | nil => simpa using h
    | cons c u =>
      simp at h
      exact absurd h.1 (fun e => hu (e ▸ List.mem_cons_self))
  | cons c t ih =>
    cases u with
    | nil =>
      simp at h
      exact absurd h.1.symm (fun e => ht (e ▸ List.mem_cons_self))
    | cons d u =>
      simp at h
      exact ih (fun h' => ht (List.mem_cons_of_mem _ h')) (fun h' => hu (List.mem_cons_of_mem _ h')) h.2

theorem no_range_first {P : Prop} {t x u q : Str} {lo hi : Option Nat} (ht : ']' ∉ t) (he : Entry P ('[' :: t ++ ']' :: '-' :: x) u q)
    (hr : WrittenRange u lo hi) : False := by
  have h1 : '[' ∉ u := fun h => absurd (Parser.bounds_chars hr _ h) (by decide)
  have h2 : ']' ∉ u := fun h => absurd (Parser.bounds_chars hr _ h) (by decide)
  generalize hy : '[' :: t ++ ']' :: '-' :: x = e at he
  cases he with
  | bare4 _ => exact h1 (hy ▸ List.mem_cons_self)
  | bare6 _ => exact h1 (hy ▸ List.mem_cons_self)
  | port4 _ _ _ =>
    cases u with
    | nil => simp at hy
    | cons c u =>
      simp at hy
      exact h1 (hy.1 ▸ List.mem_cons_self)
  | bracket =>
    simp only [List.cons_append, List.cons.injEq, true_and] at hy
    have := bracket_first ht h2 hy
    cases this
  | port6 _ =>
    simp only [List.cons_append, List.cons.injEq, true_and] at hy
    have := bracket_first ht h2 hy
    simp at this

theorem no_range_last {P : Prop} {f t x u q : Str} {lo hi : Option Nat} (hf : '[' ∉ f) (ht : 2 ≤ t.count ':')
    (he : Entry P (f ++ '-' :: '[' :: t ++ ']' :: x) u q) (hr : WrittenRange u lo hi) : False := by
  have h1 : '[' ∉ u := fun h => absurd (Parser.bounds_chars hr _ h) (by decide)
  have hhead : ∀ y, f ++ '-' :: '[' :: t ++ ']' :: x = '[' :: y → False := by
    intro y hy
    cases f with
    | nil => simp at hy
    | cons c f =>
      simp at hy
      exact hf (hy.1 ▸ List.mem_cons_self)
  have hcount : 2 ≤ (f ++ '-' :: '[' :: t ++ ']' :: x).count ':' := by
    rw [List.count_append, List.count_append, List.count_cons_of_ne (by decide), List.count_cons_of_ne (by decide)]
    omega
  have hmem : '[' ∈ f ++ '-' :: '[' :: t ++ ']' :: x := by simp
  generalize f ++ '-' :: '[' :: t ++ ']' :: x = e at he hhead hcount hmem
  cases he with
  | bare4 _ => exact h1 hmem
  | bare6 _ => exact h1 hmem
  | port4 hu hq _ =>
    rw [List.count_append, List.count_cons_self, List.count_eq_zero.2 hu, List.count_eq_zero.2 hq] at hcount
    omega
  | bracket => exact hhead _ rfl
  | port6 _ => exact hhead _ rfl

/-! ### C87 in the default mode -/

/-- Every bound of the range which is set is an IPv4 address. -/
def AllIpv4 (r : Range) : Prop :=
  (r.hasFrom = true → isV4 (ip r.lo.getIpv6.addr)) ∧ (r.hasTo = true → isV4 (ip r.hi.getIpv6.addr))

theorem readsAll_one {env : ParseEnv} {p : Parser} (hp : ReadsAll env p) {s : Str} (hne : s ≠ []) (h : ∀ c ∈ s, c ∈ "0123456789abcdef:.[]-/".toList) :
    OneEntry p s ∧ Trims s s := by
  have hnot : ∀ c ∈ s, ∀ x, x ∉ "0123456789abcdef:.[]-/".toList → c ≠ x := fun c hc x hx e => hx (e ▸ h c hc)
  refine ⟨⟨hne, fun x hx => ?_, hp.comments⟩, ?_⟩
  · rw [separates, beq_eq_false_iff_ne.2 (hnot x hx ',' (by decide)), beq_eq_false_iff_ne.2 (hnot x hx ' ' (by decide)),
      beq_eq_false_iff_ne.2 (hnot x hx '\n' (by decide))]
    simp
  · have : ∀ c ∈ s, c ∉ " \t\n\x0b\x0c\r".toList := fun c hc =>
      (by decide : ∀ c ∈ "0123456789abcdef:.[]-/".toList, c ∉ " \t\n\x0b\x0c\r".toList) c (h c hc)
    exact trims_self (fun c hc => this c (List.mem_of_head? hc)) (fun c hc => this c (List.mem_of_getLast? hc))

theorem addressText_chars (a : Addr) : ∀ c ∈ addressText a, c ∈ "0123456789abcdef:.[]".toList := by
  intro c hc
  have e1 : ∀ c ∈ "0123456789.".toList, c ∈ "0123456789abcdef:.[]".toList := by decide
  have e2 : ∀ c ∈ "0123456789abcdef:.".toList, c ∈ "0123456789abcdef:.[]".toList := by decide
  unfold addressText at hc
  split at hc
  · exact e1 c (ntop4_chars _ c hc)
  · simp only [List.mem_append, List.mem_cons, List.cons_append, List.not_mem_nil, or_false] at hc
    rcases hc with hc | hc | hc
    · subst hc; decide
    · split at hc
      · exact (by decide : ∀ c ∈ "::".toList, c ∈ "0123456789abcdef:.[]".toList) c hc
      · exact e2 c (ntop6_chars _ c hc)
    · subst hc; decide

theorem maskText_chars (a : Addr) : ∀ c ∈ maskText a, c ∈ "0123456789abcdef:.[]-".toList := by
  intro c hc
  have e1 : ∀ c ∈ "0123456789.".toList, c ∈ "0123456789abcdef:.[]-".toList := by decide
  have e2 : ∀ c ∈ "0123456789abcdef:.".toList, c ∈ "0123456789abcdef:.[]-".toList := by decide
  have e3 : ∀ c ∈ "0123456789".toList, c ∈ "0123456789abcdef:.[]-".toList := by decide
  unfold maskText at hc
  split at hc
  · split at hc
    · exact e1 c (ntop4_chars _ c hc)
    · simp only [List.mem_append, List.mem_cons, List.cons_append, List.not_mem_nil, or_false] at hc
      rcases hc with hc | hc | hc
      · subst hc; decide
      · exact e2 c (ntop6_chars _ c hc)
      · subst hc; decide
  · generalize (if a.isIpv4 then a.getMaskSize - 96 else a.getMaskSize) = n at hc
    unfold intStr at hc
    split at hc
    · rcases List.mem_cons.1 hc with hc | hc
      · subst hc; decide
      · exact e3 c (decStr_chars _ c hc)
    · exact e3 c (decStr_chars _ c hc)

/-- C87 in the default mode: the text of a range with a last address is refused, with one error, when one of its addresses is an IPv6 one. -/
theorem C87_default_refused (env : ParseEnv) (db : NetDb) (p : Parser) (r : Range) (s : Str) (hp : ReadsAll env p) (h : HasAddresses r)
    (ht : r.hasTo = true) (h6 : ¬ AllIpv4 r) (hs : r.toStr db STRING_IP_ALL = .ok s) :
    ∃ p', Parser.parse env s p = (p', .ok []) ∧ p'.config = p.config ∧ p'.getErrorCount = p.getErrorCount + 1
      ∧ p'.hasErrors = true ∧ p.errorMessages <+: p'.errorMessages := by
  obtain ⟨_, rfl⟩ := range_printed h ht hs
  generalize hE : (if r.hasFrom then addressText r.lo else []) ++ '-' :: (addressText r.hi ++ ':' :: dec r.hi.getPort) = e
  obtain ⟨t1, a1, b1, c1⟩ := addressText_form r.lo
  obtain ⟨t2, a2, b2, c2⟩ := addressText_form r.hi
  have hE' := hE
  have hbr : ∀ {t : Str} {n : Nat}, AddressOf t n → '[' ∉ t ∧ ']' ∉ t := fun h =>
    ⟨fun h' => absurd (Parser.address_chars h _ h') (by decide), fun h' => absurd (Parser.address_chars h _ h') (by decide)⟩
  have hshape : (∃ x, e = '[' :: t1 ++ ']' :: '-' :: x) ∨
      (∃ f x, '[' ∉ f ∧ f.head? ≠ some ':' ∧ 2 ≤ t2.count ':' ∧ e = f ++ '-' :: '[' :: t2 ++ ']' :: x) := by
    cases hf : r.hasFrom with
    | false =>
      rw [hf] at hE
      have h2 : ¬ isV4 (ip r.hi.getIpv6.addr) := fun h2 => h6 ⟨fun h' => (Bool.false_ne_true (hf.symm.trans h')).elim, fun _ => h2⟩
      refine .inr ⟨[], ':' :: dec r.hi.getPort, by simp, by simp, (c2 h2).2, ?_⟩
      rw [← hE, (c2 h2).1]
      simp
    | true =>
      rw [hf] at hE
      by_cases h1 : isV4 (ip r.lo.getIpv6.addr)
      · have h2 : ¬ isV4 (ip r.hi.getIpv6.addr) := fun h2 => h6 ⟨fun _ => h1, fun _ => h2⟩
        refine .inr ⟨t1, ':' :: dec r.hi.getPort, (hbr a1).1, fun h' => (b1 h1).2 (List.mem_of_head? h'), (c2 h2).2, ?_⟩
        rw [← hE, (c2 h2).1, (b1 h1).1]
        simp
      · refine .inl ⟨addressText r.hi ++ ':' :: dec r.hi.getPort, ?_⟩
        rw [← hE, (c1 h1).1]
        simp
  have hchars : ∀ c ∈ e, c ∈ "0123456789abcdef:.[]-".toList := by
    have e1 : ∀ c ∈ "0123456789abcdef:.[]".toList, c ∈ "0123456789abcdef:.[]-".toList := by decide
    have e2 : ∀ c ∈ "0123456789".toList, c ∈ "0123456789abcdef:.[]-".toList := by decide
    intro c hc
    rw [← hE'] at hc
    simp only [List.mem_append, List.mem_cons] at hc
    rcases hc with hc | hc | hc | hc | hc
    · split at hc
      · exact e1 c (addressText_chars _ c hc)
      · cases hc
    · subst hc; decide
    · exact e1 c (addressText_chars _ c hc)
    · subst hc; decide
    · exact e2 c (dec_digits _ c hc)
  have hslash : '/' ∉ e := fun h => absurd (hchars _ h) (by decide)
  have hnul : '\x00' ∉ e := fun h => absurd (hchars _ h) (by decide)
  have hall : ∀ c ∈ e ++ '/' :: maskText r.hi, c ∈ "0123456789abcdef:.[]-/".toList := by
    have e1 : ∀ c ∈ "0123456789abcdef:.[]-".toList, c ∈ "0123456789abcdef:.[]-/".toList := by decide
    intro c hc
    simp only [List.mem_append, List.mem_cons] at hc
    rcases hc with hc | hc | hc
    · exact e1 c (hchars c hc)
    · subst hc; decide
    · exact e1 c (maskText_chars _ c hc)
  obtain ⟨hone, htrim⟩ := readsAll_one hp (by simp) hall
  have hno : ¬ ∃ u q lo hi port, Entry (PortsAllowed p) e u q ∧ WrittenRange u lo hi ∧ PortOf env p.config q port := by
    rintro ⟨u, q, lo, hi, port, he, hr, _⟩
    rcases hshape with ⟨x, rfl⟩ | ⟨f, x, hf, _, hcol, rfl⟩
    · exact no_range_first (hbr a1).2 he hr
    · exact no_range_last hf hcol he hr
  have hleft : ¬ LeftOut e := by
    rintro (rfl | ⟨h1, _⟩ | h1)
    · rcases hshape with ⟨x, h⟩ | ⟨f, x, _, _, _, h⟩ <;> simp at h
    · rcases hshape with ⟨x, rfl⟩ | ⟨f, x, _, hh, _, rfl⟩
      · simp at h1
      · cases f with
        | nil => simp at h1
        | cons c f => exact hh h1
    · rcases hshape with ⟨x, rfl⟩ | ⟨f, x, hf, hh, _, rfl⟩
      · obtain ⟨y, h1⟩ := h1
        have := Parser.address_ne a1
        cases t1 with
        | nil => exact this rfl
        | cons c t =>
          simp at h1
          exact (hbr a1).2 (h1.1 ▸ List.mem_cons_self)
      · obtain ⟨y, h1⟩ := h1
        cases f with
        | nil => simp at h1
        | cons c f =>
          simp at h1
          exact hf (h1.1 ▸ List.mem_cons_self)
  obtain ⟨v4, msg, hpa⟩ := Parser.rangeEntry_refuses_mask (env := env) ⟨hp.lookup, hp.protocol⟩ hp.range (maskText r.hi) hnul (.inr hleft) hno
  refine ⟨Parser.emitAll [msg] p, ?_, rfl, ?_, ?_, ?_⟩
  · rw [parse_one_unsorted env _ p hone hp.sort, Parser.parseCidr_mask env _ [] p hp.mask, trims_eq htrim, cutMask_split ⟨hslash, .inr rfl⟩]
    dsimp only
    rw [hpa]
    dsimp only
    rw [show Parser.maskLoop env (maskText r.hi) v4 [] (Parser.emitAll [msg] p) = (Parser.emitAll [msg] p, .ok []) from rfl]
    simp
  · simp [Parser.emitAll, Parser.getErrorCount]
  · simp [Parser.emitAll, Parser.hasErrors]
  · simp [Parser.emitAll, Parser.errorMessages]

/-- The text of a range of IPv4 addresses, with a port and a number of bits, is read. -/
theorem four_reads {env : ParseEnv} {p : Parser} {u : Str} {lo hi : Option Nat} {port k : Nat} (hp : ReadsAll env p) (hw : WrittenRange u lo hi)
    (hu : ':' ∉ u) (hn : ¬ NoneBetween lo hi) (hport : port ≤ 65535) (hk : k ≤ 32) :
    ∃ r', Parser.parse env ((u ++ ':' :: dec port) ++ '/' :: dec k) p = (p, .ok [r']) ∧ boundsOf r' = (lo, hi)
      ∧ (r'.hasFrom = true → r'.lo.getPort = port) ∧ (r'.hasTo = true → r'.hi.getPort = port) := by
  obtain ⟨a, ha⟩ : ∃ a, a = u ++ ':' :: dec port := ⟨_, rfl⟩
  rw [← ha]
  have hq : ':' ∉ dec port := fun h => absurd (dec_digits _ _ h) (by decide)
  have hchars : ∀ c ∈ a, c ∈ '-' :: Parser.textChars := by
    intro c hc
    rw [ha] at hc
    simp only [List.mem_append, List.mem_cons] at hc
    rcases hc with hc | hc | hc
    · exact Parser.bounds_chars hw c hc
    · subst hc; decide
    · exact (by decide : ∀ c ∈ "0123456789".toList, c ∈ '-' :: Parser.textChars) c (dec_digits _ c hc)
  have hnot : ∀ c ∈ a, ∀ x, x ∉ '-' :: Parser.textChars → c ≠ x := fun c hc x hx e => hx (e ▸ hchars c hc)
  have hne : a ≠ [] := by rw [ha]; simp
  have hsep : ∀ (q : Parser), ∀ x ∈ a, separates q x = false := by
    intro q x hx
    rw [separates, beq_eq_false_iff_ne.2 (hnot x hx ',' (by decide)), beq_eq_false_iff_ne.2 (hnot x hx ' ' (by decide)),
      beq_eq_false_iff_ne.2 (hnot x hx '\n' (by decide))]
    simp
  have htrim : Trims a a := by
    have : ∀ c ∈ a, c ∉ " \t\n\x0b\x0c\r".toList := fun c hc =>
      (by decide : ∀ c ∈ '-' :: Parser.textChars, c ∉ " \t\n\x0b\x0c\r".toList) c (hchars c hc)
    exact trims_self (fun c hc => this c (List.mem_of_head? hc)) (fun c hc => this c (List.mem_of_getLast? hc))
  obtain ⟨g1, g2, g3, g4, g5, g6⟩ := forbidMask_agree p
  have hnc : NoComments (forbidMask p) := by
    have := hp.comments
    unfold NoComments at this ⊢
    rw [g5 _ (by decide), g5 _ (by decide)]
    exact this
  have hentry : Entry (PortsAllowed (forbidMask p)) a u (dec port) := by
    rw [ha]
    exact .port4 hu hq (.inl (by rw [g5 _ (by decide)]; exact hp.port))
  have hpo : PortOf env (forbidMask p).config (dec port) port := by
    refine ⟨hport, ?_⟩
    rw [if_pos (dec_ne_nil _)]
    exact ⟨.inl (by rw [g5 _ (by decide)]; exact hp.port), hp.numbers _ hport⟩
  have hread : ReadsRange (forbidMask p) a :=
    { lookup := by rw [g5 _ (by decide)]; exact hp.lookup
      mask := g2
      range := by rw [g5 _ (by decide)]; exact hp.range
      protocol := hp.protocol
      one := ⟨hne, hsep _, hnc⟩
      sort := by
        have := hp.sort
        unfold Unsorted at this ⊢
        rw [g6]
        exact this }
  obtain ⟨r0, j1, j2, j3⟩ := (C86_accepted env (forbidMask p) a a _ _ _ _ _ hread htrim hentry hw hpo).1 (fun h => hn h.2)
  have hhas : HasAddress a := by
    refine ⟨hne, .inr ?_, (trims_eq htrim).symm ▸ rfl, fun h => hnot _ h '/' (by decide) rfl⟩
    rw [ha, Parser.head_append (Parser.bounds_ne hw)]
    exact fun e => hu (List.mem_of_head? e)
  have hval : Nat.ofDigitChars 10 (dec k) 0 = k := Nat.ofDigitChars_ten_toDigits
  obtain ⟨l', m1, m2⟩ := (C40_decimal_mask env p a (dec k) [r0] hp.mask hhas ⟨hne, hsep p, hp.comments⟩ hp.sort (dec_ne_nil _)
    (fun c hc => Nat.isDigit_of_mem_toDigits (by decide) (by decide) hc) j1).2 (by
    intro x _
    rw [hval, maskBits]
    split <;> omega)
  cases m2 with
  | cons h1 h2 =>
    cases h2 with
    | nil =>
      rename_i r'
      obtain ⟨n1, n2, n3, n4, _⟩ := h1
      have key : ∀ {has : Bool} {a : Addr} {o : Option Nat}, BoundIs has a port (decide (dec port ≠ [])) o →
          (if has then some (ip a.getIpv6.addr) else none) = o ∧ (has = true → a.getPort = port) := by
        intro has a o h
        cases o with
        | none =>
          have h : has = false := h
          rw [h]
          exact ⟨rfl, fun h => nomatch h⟩
        | some n =>
          obtain ⟨k1, k2, k3, _⟩ := h
          rw [k1, if_pos rfl, k2]
          exact ⟨rfl, fun _ => k3⟩
      refine ⟨r', m1, ?_, ?_, ?_⟩
      · unfold boundsOf
        rw [n1, n2, n3, show r'.lo.getIpv6 = r0.lo.getIpv6 from n4.1]
        exact Prod.ext (key j2).1 (key j3).1
      · intro h
        rw [← (key j2).2 (n1 ▸ h)]
        unfold Addr.getPort
        rw [n4.1]
      · intro h
        rw [n3]
        exact (key j3).2 (n2 ▸ h)

/-- C87 in the default mode: the text of a range of IPv4 addresses with a last one, of which the mask is a number of bits, is read back with the same
bounds, and with the port of the last one. -/
theorem C87_default_four (env : ParseEnv) (db : NetDb) (p : Parser) (r : Range) (k : Nat) (hp : ReadsAll env p) (h : HasAddresses r)
    (ht : r.hasTo = true) (h4 : AllIpv4 r) (hk : 96 ≤ k ∧ k ≤ 128) (hm : ip r.hi.getMask = prefixMask k) :
    ∃ s r', r.toStr db STRING_IP_ALL = .ok s ∧ Parser.parse env s p = (p, .ok [r']) ∧ boundsOf r' = boundsOf r
      ∧ (r'.hasFrom = true → r'.lo.getPort = r.hi.getPort) ∧ r'.hi.getPort = r.hi.getPort := by
  obtain ⟨t1, a1, b1, _⟩ := addressText_form r.lo
  obtain ⟨t2, a2, b2, _⟩ := addressText_form r.hi
  have hv := (isIpv4_iff r.hi).2 (h4.2 ht)
  have hsize : r.hi.getMaskSize = k := (C09_mask_size_iff r.hi k hk.2).2 hm
  have hcompat : r.hi.isMaskIpv4Compatible = true := by
    rw [maskCompatible_iff, hm, prefixMask]
    have h1 : 2 ^ (128 - k) ≤ 2 ^ 32 := Nat.pow_le_pow_right (by omega) (by omega)
    have h2 : 0 < 2 ^ (128 - k) := Nat.pow_pos (by omega)
    omega
  have hhi := toIpv4or6String_all db r.hi (fun _ => hcompat)
  have hport : r.hi.getPort ≤ 65535 := by
    have : r.hi.getPort < 2 ^ 16 := BitVec.isLt _
    omega
  have hmt : maskText r.hi = dec (k - 96) := by
    rw [maskText, if_neg (by omega), if_pos hv, intStr_nonneg (by omega), decStr_dec, show (r.hi.getMaskSize - 96).toNat = k - 96 by omega]
  rw [hmt, (b2 (h4.2 ht)).1] at hhi
  have hem := hasAddresses_isEmpty h
  cases hf : r.hasFrom with
  | false =>
    obtain ⟨r', j1, j2, j3, j4⟩ := four_reads (env := env) (p := p) (port := r.hi.getPort) (k := k - 96) hp (.stop a2)
      (by simp [(b2 (h4.2 ht)).2]) (by rintro ⟨_, _, e, _⟩; cases e) hport (by omega)
    refine ⟨_, r', ?_, j1, ?_, j3, j4 ?_⟩
    · unfold Range.toStr
      rw [hem, hf, ht, hhi]
      simp
    · rw [j2, boundsOf, hf, ht]
      rfl
    · have := congrArg Prod.snd j2
      unfold boundsOf at this
      cases h' : r'.hasTo
      · rw [h'] at this
        cases this
      · rfl
  | true =>
    obtain ⟨r', j1, j2, j3, j4⟩ := four_reads (env := env) (p := p) (port := r.hi.getPort) (k := k - 96) hp (.both a1 a2)
      (by simp [(b2 (h4.2 ht)).2, (b1 (h4.1 hf)).2]) (by
        rintro ⟨n, m, e1, e2, e3⟩
        have := h.2 ⟨hf, ht⟩
        rw [Option.some.injEq] at e1 e2
        omega) hport (by omega)
    refine ⟨_, r', ?_, j1, ?_, j3, j4 ?_⟩
    · unfold Range.toStr
      rw [hem, hf, ht, hhi, bracket_mode, (b1 (h4.1 hf)).1]
      simp
    · rw [j2, boundsOf, hf, ht]
      rfl
    · have := congrArg Prod.snd j2
      unfold boundsOf at this
      cases h' : r'.hasTo
      · rw [h'] at this
        cases this
      · rfl

/-- C87 in the default mode: the text of a range with a first address only is read back with its bound, its port and its mask. -/
theorem C87_default_first (env : ParseEnv) (db : NetDb) (p : Parser) (r : Range) (k : Nat) (hp : ReadsAll env p) (hf : r.hasFrom = true)
    (ht : r.hasTo = false) (hk : k ≤ 128) (hv : isV4 (ip r.lo.getIpv6.addr) → 96 ≤ k) (hm : ip r.lo.getMask = prefixMask k) :
    ∃ s r', r.toStr db STRING_IP_ALL = .ok s ∧ Parser.parse env s p = (p, .ok [r']) ∧ boundsOf r' = boundsOf r
      ∧ r'.lo.getPort = r.lo.getPort ∧ ip r'.lo.getMask = ip r.lo.getMask := by
  have hpp : PrintsPort STRING_IP_ALL := by unfold PrintsPort; decide
  have hpm : PrintsMask STRING_IP_ALL r.lo := ⟨by decide, .inl (by decide)⟩
  obtain ⟨s, r', h1, h2, h3, h4, h5, h6, _, h7⟩ := C44_print_parse_partial env db p STRING_IP_ALL r.lo k ⟨by decide, by decide, by decide, by decide⟩
    (by decide) hm hk hv
    { lookup := hp.lookup
      protocol := by
        have := hp.protocol
        rcases this with h | h | h | h <;> rw [h] <;> decide
      comments := hp.comments
      sort := hp.sort
      numbers := hp.numbers
      port := fun _ => .inl hp.port
      noPort := fun h => absurd hpp h
      mask := fun _ => hp.mask
      noMask := fun h => absurd hpm h }
  refine ⟨s, r', ?_, h2, ?_, ?_, ?_⟩
  · unfold Range.toStr
    have : r.isEmpty = false := by
      rw [← Bool.not_eq_true, isEmpty_iff]
      rintro ⟨⟨_, h⟩, _⟩
      rw [ht] at h
      cases h
    rw [this, hf, ht]
    exact h1
  · rw [boundsOf, boundsOf, h3, h4, hf, ht, h5]
    rfl
  · rw [h6, portRead, if_pos hpp]
  · rw [h7, if_pos hpm]

/-- The bound of which the default mode prints the mask: the last one, or the first one when there is no last one. -/
def printedBound (r : Range) : Addr := if r.hasTo then r.hi else r.lo

/-- C87 in the default mode: a range of which the mask printed is a number of bits is printed, and it is read back with its bounds exactly when it has a
first address only or IPv4 addresses only. Otherwise the text is an error. -/
theorem C87_default_exact (env : ParseEnv) (db : NetDb) (p : Parser) (r : Range) (k : Nat) (hp : ReadsAll env p) (h : HasAddresses r)
    (hk : k ≤ 128) (hv : isV4 (ip (printedBound r).getIpv6.addr) → 96 ≤ k) (hm : ip (printedBound r).getMask = prefixMask k) :
    ∃ s, r.toStr db STRING_IP_ALL = .ok s
      ∧ ((∃ r', Parser.parse env s p = (p, .ok [r']) ∧ boundsOf r' = boundsOf r) ↔ r.hasTo = false ∨ AllIpv4 r)
      ∧ ((Parser.parse env s p).1.getErrorCount = p.getErrorCount ↔ r.hasTo = false ∨ AllIpv4 r) := by
  unfold printedBound at hv hm
  cases ht : r.hasTo with
  | false =>
    have hf : r.hasFrom = true := by
      have := h.1
      unfold Defined at this
      rw [ht] at this
      simpa using this
    rw [ht] at hv hm
    obtain ⟨s, r', h1, h2, h3, _⟩ := C87_default_first env db p r k hp hf ht hk hv hm
    exact ⟨s, h1, ⟨fun _ => .inl rfl, fun _ => ⟨r', h2, h3⟩⟩, ⟨fun _ => .inl rfl, fun _ => by rw [h2]⟩⟩
  | true =>
    rw [ht, if_pos rfl] at hv hm
    by_cases h4 : AllIpv4 r
    · obtain ⟨s, r', h1, h2, h3, _⟩ := C87_default_four env db p r k hp h ht h4 ⟨hv (h4.2 ht), hk⟩ hm
      exact ⟨s, h1, ⟨fun _ => .inr h4, fun _ => ⟨r', h2, h3⟩⟩, ⟨fun _ => .inr h4, fun _ => by rw [h2]⟩⟩
    · have hcompat : r.hi.isIpv4 = true → r.hi.isMaskIpv4Compatible = true := by
        intro h'
        have hk' := hv ((isIpv4_iff r.hi).1 h')
        rw [maskCompatible_iff, hm, prefixMask]
        have h1 : 2 ^ (128 - k) ≤ 2 ^ 32 := Nat.pow_le_pow_right (by omega) (by omega)
        have h2 : 0 < 2 ^ (128 - k) := Nat.pow_pos (by omega)
        omega
      obtain ⟨s, hs⟩ : ∃ s, r.toStr db STRING_IP_ALL = .ok s := by
        unfold Range.toStr
        rw [hasAddresses_isEmpty h, ht, bracket_mode, toIpv4or6String_all db r.hi hcompat]
        cases r.hasFrom <;> exact ⟨_, rfl⟩
      obtain ⟨p', h1, _, h2, _⟩ := C87_default_refused env db p r s hp h ht h4 hs
      refine ⟨s, hs, ⟨?_, ?_⟩, ?_, ?_⟩
      · rintro ⟨r', h3, _⟩
        rw [h1] at h3
        cases h3
      · rintro (h | h)
        · cases h
        · exact absurd h h4
      · intro h3
        rw [h1, h2] at h3
        omega
      · rintro (h | h)
        · cases h
        · exact absurd h h4

/-! ### Examples -/

/-- The range which ends with 10.0.1.9, without a first address. -/
def lastRange : Range := Range.default.setTo (sampleV4 10 0 1 9)

/-- The range from 10.0.0.5 to 2001::1. -/
def mixedRange : Range := (Range.default.setFrom (sampleV4 10 0 0 5)).setTo (sampleAddr #v[0x20, 1, 0, 0, 0, 0, 0, 0, 0, 0, 0, 0, 0, 0, 0, 1])

example : ∃ s r', lastRange.toStr sampleDb STRING_IP_ALL = .ok s ∧ Parser.parse sampleEnv s rangeAllParser = (rangeAllParser, .ok [r'])
    ∧ boundsOf r' = (none, some 0xFFFF0A000109) := by
  obtain ⟨s, r', h1, h2, h3, _⟩ := C87_default_four sampleEnv sampleDb rangeAllParser lastRange 128 rangeAllParser_reads
    ⟨by unfold Defined; decide, fun h => absurd h.1 (by decide)⟩ (by decide) ⟨fun h => absurd h (by decide), fun _ => by decide⟩ (by decide) (by decide)
  exact ⟨s, r', h1, h2, h3.trans (by decide)⟩

example : ∃ p', Parser.parse sampleEnv "10.0.0.5-[2001::1]:0/128".toList rangeAllParser = (p', .ok []) ∧ p'.getErrorCount = rangeAllParser.getErrorCount + 1 := by
  obtain ⟨p', h1, _, h2, _⟩ := C87_default_refused sampleEnv sampleDb rangeAllParser mixedRange "10.0.0.5-[2001::1]:0/128".toList rangeAllParser_reads
    ⟨by unfold Defined; decide, fun _ => by decide⟩ (by decide) (fun h => absurd (h.2 (by decide)) (by decide)) (by decide +kernel)
  exact ⟨p', h1, h2⟩

end Verif
