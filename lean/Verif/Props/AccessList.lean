import Verif.SpecNetwork
import Verif.Props.Language
import Verif.Props.ParserSort

/-!
# Property C82: lists of networks
-/

namespace Verif

open Spec

/-- A parser which reads a list of networks without lookups: no ports are required or there by default, and there are no default masks. -/
structure ReadsNetworks (p : Parser) : Prop where
  list : ListMode p
  comments : NoComments p
  mask : p.config.flags .mask = true
  lookup : p.config.flags .addressLookup = false
  protocol : p.config.protocol = -1 ∨ p.config.protocol = IPPROTO_IP ∨ p.config.protocol = IPPROTO_TCP ∨ p.config.protocol = IPPROTO_UDP
  port : p.config.flags .requiredPort = false
  defaultPort : p.config.defaultPort = -1
  mask4 : p.config.defaultMask4 = []
  mask6 : p.config.defaultMask6 = []

/-- The range is this network. -/
def IsNetwork (r : Range) (n k : Nat) : Prop :=
  r.hasFrom = true ∧ r.hasTo = false ∧ ip r.lo.getIpv6.addr = n ∧ k ≤ 128 ∧ ip r.lo.getMask = prefixMask k

theorem network_match {r : Range} {n k : Nat} (h : IsNetwork r n k) (a : Addr) :
    r.matchAddr a = .ok true ↔ InNetwork (ip a.getIpv6.addr) n k := by
  obtain ⟨h1, h2, h3, h4, h5⟩ := h
  have he : r.matchAddr a = .ok (r.lo.matchAddr a) := by
    simp [Range.matchAddr, Range.isEmpty, Range.isRange, h1, h2]
  rw [he]
  have hb := C11_match_block r.lo a k ((C09_mask_size_iff r.lo k h4).2 h5)
  obtain ⟨h6, h7⟩ := C10_apply_mask_block r.lo k ((C09_mask_size_iff r.lo k h4).2 h5)
  rw [h6, h7, h3] at hb
  unfold blockFirst blockLast at hb
  rw [← div_eq_iff_between] at hb
  unfold InNetwork
  constructor
  · intro h
    have : r.lo.matchAddr a = true := by
      injection h
    exact (hb.1 this).symm
  · intro h
    rw [hb.2 h.symm]

section
variable {env : ParseEnv} {p : Parser}

theorem network_ne {t : Str} {n k : Nat} (h : Network t n k) : t ≠ [] := by
  cases h with
  | v4 => simp
  | v6 => simp
  | bracket => simp
  | hostBracket => simp
  | host h => exact Parser.address_ne h

theorem dash_text {u : Str} {n : Nat} (h : AddressOf u n) : '-' ∉ u := fun h' => absurd (Parser.address_chars h _ h') (by decide)

theorem address_trims {u : Str} {n : Nat} (h : AddressOf u n) : Trims u u := by
  have : ∀ c ∈ u, c ∉ " \t\n\x0b\x0c\r".toList := fun c hc =>
    (by decide : ∀ c ∈ Parser.textChars, c ∉ " \t\n\x0b\x0c\r".toList) c (Parser.address_chars h c hc)
  exact trims_self (fun c hc => this c (List.mem_of_head? hc)) (fun c hc => this c (List.mem_of_getLast? hc))

theorem bracket_trims (u : Str) : Trims ('[' :: u ++ [']']) ('[' :: u ++ [']']) := by
  refine trims_self (fun c hc => ?_) (fun c hc => ?_)
  · rw [List.cons_append, List.head?_cons] at hc
    injection hc with hc
    rw [← hc]; decide
  · rw [List.getLast?_append] at hc
    injection hc with hc
    rw [← hc]; decide

/-- The text of an address, for the parser. -/
theorem address_hasAddress {u : Str} {n : Nat} (h : AddressOf u n) : HasAddress u where
  nonempty := Parser.address_ne h
  notPort := by
    rcases Parser.address_colon h with h1 | h1
    · exact .inr fun h2 => h1.1 (List.mem_of_head? h2)
    · exact .inl h1
  noSpace := trims_eq (address_trims h)
  noSlash := fun h1 => absurd (Parser.address_chars h _ h1) (by decide)

theorem bracket_hasAddress {u : Str} {n : Nat} (h : AddressOf u n) : HasAddress ('[' :: u ++ [']']) where
  nonempty := by simp
  notPort := .inr (by simp)
  noSpace := trims_eq (bracket_trims u)
  noSlash := fun h1 => by
    rw [List.mem_append, List.mem_cons] at h1
    rcases h1 with (h1 | h1) | h1
    · exact absurd h1 (by decide)
    · exact absurd (Parser.address_chars h _ h1) (by decide)
    · exact absurd h1 (by decide)

theorem written_bracket {u : Str} : ¬ WrittenAsIpv4 p ('[' :: u ++ [']']) := fun h => h.2.1 (by simp)

theorem entry_bare {ports : Prop} {u : Str} {n : Nat} (h : AddressOf u n) : Entry ports u u [] := by
  rcases Parser.address_colon h with h1 | h1
  · exact .bare4 h1.1
  · exact .bare6 h1

theorem written_iff {u : Str} {n : Nat} (h : AddressOf u n) : WrittenAsIpv4 p u ↔ ':' ∉ u := by
  have hc := Parser.address_chars h
  constructor
  · rintro ⟨h1, _⟩
    rcases Parser.address_colon h with h2 | h2
    · exact h2.1
    · omega
  · intro h1
    refine ⟨by rw [List.count_eq_zero.2 h1]; decide, fun h2 => absurd (hc _ (List.mem_of_head? h2)) (by decide),
      fun h2 => absurd (hc _ h2) (by decide), .inr (.inr (.inl h1))⟩

theorem portOf_none (env : ParseEnv) {c : Config} (h1 : c.flags .requiredPort = false) (h2 : c.defaultPort = -1) : PortOf env c [] 0 := by
  refine ⟨by decide, ?_⟩
  rw [if_neg (by decide), if_pos h2]
  exact ⟨h1, rfl⟩

theorem isV4_mapped {v : Nat} (hv : v < 2 ^ 32) : isV4 (0xFFFF00000000 + v) := by
  unfold isV4 inBlock
  omega

/-- An address and the number of its bits. -/
theorem parse_masked (h : ReadsNetworks p) (hs : Unsorted p) {a u s : Str} {n : Nat} (hu : AddressOf u n)
    (he : ∀ ports, Entry ports a u []) (ha : HasAddress a) (ht : Trims a a) (hdash : '-' ∉ a)
    (hsep : ∀ x ∈ a, separates p x = false) (hs0 : s ≠ []) (hd : ∀ c ∈ s, c.isDigit = true)
    (hm : Nat.ofDigitChars 10 s 0 ≤ if WrittenAsIpv4 p a then 32 else 128) (hv4 : WrittenAsIpv4 p a → isV4 n) :
    ∃ r, Parser.parse env (a ++ '/' :: s) p = (p, .ok [r])
      ∧ IsNetwork r n ((if WrittenAsIpv4 p a then 96 else 0) + Nat.ofDigitChars 10 s 0) := by
  obtain ⟨g1, g2, g3, g4, g5, g6⟩ := forbidMask_agree p
  have hone : OneEntry p a := ⟨ha.nonempty, hsep, h.comments⟩
  have hsp : ∀ x, separates (forbidMask p) x = separates p x := fun x => by
    rw [separates, separates, g5 _ (by decide), g5 _ (by decide), g5 _ (by decide)]
  have hr : ReadsOne (forbidMask p) a := {
    lookup := by rw [g5 _ (by decide)]; exact h.lookup
    mask := g2
    range := .inr hdash
    protocol := h.protocol
    one := ⟨ha.nonempty, fun x hx => by rw [hsp]; exact hsep x hx,
      ⟨by rw [g5 _ (by decide)]; exact h.comments.1, by rw [g5 _ (by decide)]; exact h.comments.2⟩⟩
    sort := by rw [Unsorted, g6]; exact hs }
  obtain ⟨r, h1, h2, h3, h4, _, _, _, _⟩ := C79_accepted env (forbidMask p) a a u [] n 0 hr ht (he _) hu
    (portOf_none env (by rw [g5 _ (by decide)]; exact h.port) h.defaultPort)
  have hbits : maskBits p a r = if WrittenAsIpv4 p a then 32 else 128 := by
    unfold maskBits
    by_cases hc : WrittenAsIpv4 p a
    · have : ip r.lo.bytes = n := h4
      rw [if_pos hc, if_pos ⟨hc, (isIpv4_iff r.lo).2 (by rw [this]; exact hv4 hc)⟩]
    · rw [if_neg hc, if_neg fun h' => hc h'.1]
  obtain ⟨l', h5, h6⟩ := (C40_decimal_mask env p a s [r] h.mask ha hone hs hs0 hd h1).2 (by
    intro r' hr'
    rw [List.mem_singleton] at hr'
    subst hr'
    rw [hbits]
    exact hm)
  cases h6 with
  | @cons _ r' _ l'' h7 h8 =>
    cases h8
    obtain ⟨j1, j2, j3, j4, j5, j6⟩ := h7
    refine ⟨r', h5, by rw [j1]; exact h2, by rw [j2]; exact h3, ?_, ?_, ?_⟩
    · rw [Addr.getIpv6, j4.address]
      exact h4
    · split at hm <;> rename_i hc
      · rw [if_pos hc]; omega
      · rw [if_neg hc]; omega
    · rw [j6, hbits]
      by_cases hc : WrittenAsIpv4 p a
      · rw [if_pos hc, if_pos hc]
      · rw [if_neg hc, if_neg hc]

/-- An address alone. -/
theorem parse_host (h : ReadsNetworks p) (hs : Unsorted p) {a u : Str} {n : Nat} (hu : AddressOf u n)
    (he : ∀ ports, Entry ports a u []) (ha : HasAddress a) (hsep : ∀ x ∈ a, separates p x = false) :
    ∃ r, Parser.parse env a p = (p, .ok [r]) ∧ IsNetwork r n 128 := by
  have hone : OneEntry p a := ⟨ha.nonempty, hsep, h.comments⟩
  obtain ⟨v4, r, b, h1, h2, h3⟩ := Parser.parseAddress_accepts (env := env) (p := p) ⟨h.lookup, h.protocol⟩ (he _) hu
    (portOf_none env h.port h.defaultPort)
  have hmask : Parser.chooseMask p.config [] v4 = [] := by
    simp [Parser.chooseMask, h.mask4, h.mask6]
  have hsplit : Parser.splitFirst '/' a = none := Parser.splitFirst_none.2 ha.noSlash
  refine ⟨r, ?_, h3.hasFrom, h3.hasTo, ?_, by decide, ?_⟩
  · rw [parse_one_unsorted env a p hone hs, Parser.parseCidr, PM.config_bind, ha.noSpace]
    dsimp only
    rw [if_pos h.mask, hsplit]
    show (Parser.errorCountNow >>= fun errcnt => Parser.parseAddress env a [] [] >>= fun x => Parser.maskLoop env [] x.1 x.2 >>= fun l =>
      Parser.errorCountNow >>= fun now => if errcnt = now then (Pure.pure ([] ++ l) : PM (List Range)) else Pure.pure []) p = _
    have hl : Parser.maskLoop env [] v4 [r] p = (p, .ok [r]) := by
      simp only [Parser.maskLoop, PM.config_bind, hmask, Parser.parseMask]
      rfl
    simp only [PM.bind_def, Parser.errorCountNow, h1, hl, if_true]
    rfl
  · rw [Addr.getIpv6, h3.address]
    exact h2
  · rw [Addr.getMask, h3.mask]
    decide

/-- The text of a network, with white space around it. -/
theorem parse_network (h : ReadsNetworks p) (hs : Unsorted p) {e t : Str} {n k : Nat} (hne : e ≠ []) (he : ∀ x ∈ e, separates p x = false)
    (ht : Trims e t) (hn : Network t n k) : ∃ r, Parser.parse env e p = (p, .ok [r]) ∧ IsNetwork r n k := by
  have ht0 := network_ne hn
  have hsep : ∀ x ∈ t, separates p x = false := fun x hx => he x (trims_mem ht x hx)
  have htt : Parser.trimString e = Parser.trimString t := by
    have := trims_eq ht
    obtain ⟨_, _, _, _, _, h1, h2⟩ := ht
    rw [this, trims_eq (trims_self h1 h2)]
  rw [parse_one_unsorted env e p ⟨hne, he, h.comments⟩ hs, Parser.parseCidr_trim env [] htt,
    ← parse_one_unsorted env t p ⟨ht0, hsep, h.comments⟩ hs]
  cases hn with
  | @v4 v s hv hs0 hd hm =>
    have hu : AddressOf (dotted v) (0xFFFF00000000 + v) := .inl ⟨v, hv, rfl, rfl⟩
    have hc : WrittenAsIpv4 p (dotted v) := (written_iff hu).2 (by
      obtain ⟨b, e, _⟩ := Inet.dotted_bytes hv
      rw [e]
      exact Inet.colon_not_mem_ntop4 b)
    have := parse_masked (env := env) h hs hu (fun _ => entry_bare hu) (address_hasAddress hu) (address_trims hu) (dash_text hu)
      (fun x hx => hsep x (List.mem_append.2 (.inl hx))) hs0 hd (by rw [if_pos hc]; exact hm) (fun _ => isV4_mapped hv)
    rw [if_pos hc] at this
    exact this
  | @v6 u s n hn hu hs0 hd hm =>
    have hu' : AddressOf u n := .inr ⟨hn, hu⟩
    have hc : ¬ WrittenAsIpv4 p u := fun h' => by
      have := Parser.text_colons hu
      exact (written_iff hu').1 h' (List.count_pos_iff.1 (by omega))
    have := parse_masked (env := env) h hs hu' (fun _ => entry_bare hu') (address_hasAddress hu') (address_trims hu') (dash_text hu')
      (fun x hx => hsep x (List.mem_append.2 (.inl hx))) hs0 hd (by rw [if_neg hc]; exact hm) (fun h => absurd h hc)
    rw [if_neg hc, Nat.zero_add] at this
    exact this
  | @bracket u s n hn hu hs0 hd hm =>
    have hu' : AddressOf u n := .inr ⟨hn, hu⟩
    have hc : ¬ WrittenAsIpv4 p ('[' :: u ++ [']']) := written_bracket
    have := parse_masked (env := env) h hs hu' (fun _ => .bracket) (bracket_hasAddress hu') (bracket_trims u) (by
        intro h1
        simp only [List.mem_append, List.mem_cons, List.not_mem_nil, or_false] at h1
        rcases h1 with (h1 | h1) | h1
        · exact absurd h1 (by decide)
        · exact dash_text hu' h1
        · exact absurd h1 (by decide))
      (fun x hx => hsep x (List.mem_append.2 (.inl hx))) hs0 hd (by rw [if_neg hc]; exact hm) (fun h => absurd h hc)
    rw [if_neg hc, Nat.zero_add] at this
    exact this
  | hostBracket hn hu => exact parse_host h hs (.inr ⟨hn, hu⟩) (fun _ => .bracket) (bracket_hasAddress (.inr ⟨hn, hu⟩)) hsep
  | host hu => exact parse_host h hs hu (fun _ => entry_bare hu) (address_hasAddress hu) hsep

/-- The entries one after the other. -/
theorem parseEach_networks (h : ReadsNetworks p) (hs : Unsorted p) (es : List Str)
    (he : ∀ e ∈ es, e ≠ [] ∧ (∀ x ∈ e, separates p x = false) ∧ ∃ t n k, Trims e t ∧ Network t n k) :
    ∃ l, parseEach env es p = (p, .ok l)
      ∧ (∀ r ∈ l, ∃ e ∈ es, ∃ t n k, Trims e t ∧ Network t n k ∧ IsNetwork r n k)
      ∧ ∀ e ∈ es, ∀ t n k, Trims e t → Network t n k → ∃ r ∈ l, IsNetwork r n k := by
  induction es with
  | nil => exact ⟨[], rfl, (fun _ h => nomatch h), fun _ h => nomatch h⟩
  | cons e es ih =>
    obtain ⟨l, h1, h2, h3⟩ := ih fun e' he' => he e' (List.mem_cons_of_mem _ he')
    obtain ⟨g1, g2, t, n, k, g3, g4⟩ := he e List.mem_cons_self
    obtain ⟨r, h4, h5⟩ := parse_network (env := env) h hs g1 g2 g3 g4
    refine ⟨r :: l, ?_, ?_, ?_⟩
    · simp only [parseEach, h4, h1]
      rfl
    · intro r' hr'
      rcases List.mem_cons.1 hr' with rfl | hr'
      · exact ⟨e, List.mem_cons_self, t, n, k, g3, g4, h5⟩
      · obtain ⟨e', he', j⟩ := h2 r' hr'
        exact ⟨e', List.mem_cons_of_mem _ he', j⟩
    · intro e' he' t' n' k' ht' hn'
      rcases List.mem_cons.1 he' with rfl | he'
      · obtain ⟨r', h6, h7⟩ := parse_network (env := env) h hs g1 g2 ht' hn'
        rw [h4] at h6
        injection h6 with _ h6
        injection h6 with h6
        injection h6 with h6
        exact ⟨r, List.mem_cons_self, by rw [h6]; exact h7⟩
      · obtain ⟨r', h6, h7⟩ := h3 e' he' t' n' k' ht' hn'
        exact ⟨r', List.mem_cons_of_mem _ h6, h7⟩

end

/-- C82: a list of networks is read without an error, and an address matches the list exactly when it is in one of the networks. Missing: a parser
which merges (`SORT_MERGE`). -/
theorem C82_list_partial (env : ParseEnv) (p : Parser) (inp : Str) (h : ReadsNetworks p) (hmerge : p.config.sort &&& SORT_MERGE = 0)
    (hn : ∀ e ∈ fields (separates p) inp, e ≠ [] → ∃ t n k, Trims e t ∧ Network t n k) :
    ∃ l, (Parser.parse env inp p).2 = .ok l ∧ (Parser.parse env inp p).1.getErrorCount = p.getErrorCount
      ∧ (Parser.parse env inp p).1.errorMessages = p.errorMessages
      ∧ ∀ a : Addr, ∃ b, addressMatchRanges l a = .ok b
        ∧ (b = true ↔ ∃ e ∈ fields (separates p) inp, ∃ t n k, Trims e t ∧ Network t n k ∧ InNetwork (ip a.getIpv6.addr) n k) := by
  have hcfg := unsortedOf_config p
  have hq : ReadsNetworks (unsortedOf p) := {
    list := by rw [ListMode, hcfg]; exact h.list
    comments := by rw [NoComments, hcfg]; exact h.comments
    mask := by rw [hcfg]; exact h.mask
    lookup := by rw [hcfg]; exact h.lookup
    protocol := by rw [hcfg]; exact h.protocol
    port := by rw [hcfg]; exact h.port
    defaultPort := by rw [hcfg]; exact h.defaultPort
    mask4 := by rw [hcfg]; exact h.mask4
    mask6 := by rw [hcfg]; exact h.mask6 }
  have hs : Unsorted (unsortedOf p) := by
    rw [Unsorted, hcfg]
    show (p.config.sort &&& SORT_NO_EMPTY) &&& 0x0F = 0
    rw [BitVec.and_assoc]
    simp [SORT_NO_EMPTY]
  have hsep : separates (unsortedOf p) = separates p := by
    funext x
    rw [separates, separates, hcfg]
  have hes : ∀ e ∈ (fields (separates p) inp).filter (· ≠ []), e ≠ [] ∧ (∀ x ∈ e, separates (unsortedOf p) x = false)
      ∧ ∃ t n k, Trims e t ∧ Network t n k := by
    intro e he
    rw [List.mem_filter] at he
    have : e ≠ [] := by simpa using he.2
    exact ⟨this, by rw [hsep]; exact fields_mem _ _ _ he.1, hn e he.1 this⟩
  obtain ⟨l, h1, h2, h3⟩ := parseEach_networks (env := env) hq hs _ hes
  have h4 : Parser.parse env inp (unsortedOf p) = (unsortedOf p, .ok l) := by
    rw [C41_entrywise env inp (unsortedOf p) hq.list hq.comments hs, hsep]
    exact h1
  obtain ⟨e1, e2, _⟩ := parse_sort env inp p
  rw [h4] at e1 e2
  obtain ⟨l', h5, h6, _⟩ := C43_sort_permutes env inp p hmerge l (by rw [h4])
  refine ⟨l', h5, ?_, ?_, fun a => ?_⟩
  · exact e2.trans (unsortedOf_error p).2
  · exact e1.trans (unsortedOf_error p).1
  · obtain ⟨b, j1, j2⟩ := C35_any_range l' a
    refine ⟨b, j1, j2.trans ?_⟩
    constructor
    · rintro ⟨r, hr, hm⟩
      obtain ⟨e, he, t, n, k, g1, g2, g3⟩ := h2 r (h6.mem_iff.1 hr)
      exact ⟨e, (List.mem_filter.1 he).1, t, n, k, g1, g2, (network_match g3 a).1 hm⟩
    · rintro ⟨e, he, t, n, k, g1, g2, g3⟩
      have hne : e ≠ [] := by
        rintro rfl
        obtain ⟨x, y, g4, _⟩ := g1
        have : t = [] := by
          have := congrArg List.length g4
          simp only [List.length_append, List.length_nil] at this
          exact List.length_eq_zero_iff.1 (by omega)
        exact network_ne g2 this
      obtain ⟨r, hr, g4⟩ := h3 e (List.mem_filter.2 ⟨he, by simpa using hne⟩) t n k g1 g2
      exact ⟨r, h6.mem_iff.2 hr, (network_match g4 a).2 g3⟩

/-- The claim of C82, in any sort order. -/
def C82_claim : Prop :=
  ∀ (env : ParseEnv) (p : Parser) (inp : Str), ReadsNetworks p →
    (∀ e ∈ fields (separates p) inp, e ≠ [] → ∃ t n k, Trims e t ∧ Network t n k) →
    ∃ l, (Parser.parse env inp p).2 = .ok l ∧ (Parser.parse env inp p).1.getErrorCount = p.getErrorCount
      ∧ (Parser.parse env inp p).1.errorMessages = p.errorMessages
      ∧ ∀ a : Addr, ∃ b, addressMatchRanges l a = .ok b
        ∧ (b = true ↔ ∃ e ∈ fields (separates p) inp, ∃ t n k, Trims e t ∧ Network t n k ∧ InNetwork (ip a.getIpv6.addr) n k)

/-! ### Examples -/

theorem mergeParser_reads : ReadsNetworks mergeParser where
  list := by unfold ListMode; decide
  comments := ⟨by decide, by decide⟩
  mask := by decide
  lookup := by decide
  protocol := by decide
  port := by decide
  defaultPort := by decide
  mask4 := by decide
  mask6 := by decide

/-- C82 is false as stated: a list which is merged loses addresses. -/
theorem C82_claim_fails : ¬ C82_claim := by
  intro h
  have hn : Network "10.0.0.0/8".toList (0xFFFF00000000 + 0x0A000000) (96 + 8) :=
    .v4 (v := 0x0A000000) (s := "8".toList) (by decide) (by decide) (by decide) (by decide)
  have hn' : Network "10.0.0.1/8".toList (0xFFFF00000000 + 0x0A000001) (96 + 8) :=
    .v4 (v := 0x0A000001) (s := "8".toList) (by decide) (by decide) (by decide) (by decide)
  have hf : fields (separates mergeParser) "10.0.0.0/8,10.0.0.1/8".toList = ["10.0.0.0/8".toList, "10.0.0.1/8".toList] := by
    decide +kernel
  have ht : Trims "10.0.0.0/8".toList "10.0.0.0/8".toList := trims_self (by decide) (by decide)
  obtain ⟨l, h1, _, _, h2⟩ := h sampleEnv mergeParser "10.0.0.0/8,10.0.0.1/8".toList mergeParser_reads (by
    rw [hf]
    intro e he _
    rcases List.mem_cons.1 he with rfl | he
    · exact ⟨_, _, _, ht, hn⟩
    · rw [List.mem_singleton] at he
      subst he
      exact ⟨_, _, _, trims_self (by decide) (by decide), hn'⟩)
  obtain ⟨b, h3, h4⟩ := h2 (sampleV4 10 5 5 5)
  have h5 : b = true := h4.2 ⟨_, by rw [hf]; exact List.mem_cons_self, _, _, _, ht, hn, by unfold InNetwork; decide +kernel⟩
  have h6 := C43_merge_loses_addresses_fails.2
  rw [h1] at h6
  simp only [resultMatches, h3, h5] at h6
  exact absurd h6 (by decide)

/-- A parser which sorts: masks, no lookup, addresses separated by commas. -/
def accessParser : Parser :=
  ParserOp.runAll [(sampleEnv, .setAllow 2 true), (sampleEnv, .setAllow 9 true), (sampleEnv, .setSortOrder SORT_FULL)] sampleParser

theorem accessParser_reads : ReadsNetworks accessParser where
  list := by unfold ListMode; decide
  comments := ⟨by decide, by decide⟩
  mask := by decide
  lookup := by decide
  protocol := by decide
  port := by decide
  defaultPort := by decide
  mask4 := by decide
  mask6 := by decide

/-- C82_list_partial on a list with IPv4 and IPv6 networks, one of them with white space before it. -/
example : ∃ l, (Parser.parse sampleEnv "10.0.0.0/8, [::]/120,1.2.3.4".toList accessParser).2 = .ok l
    ∧ addressMatchRanges l (sampleV4 10 5 5 5) = .ok true := by
  have h1 : Network "10.0.0.0/8".toList (0xFFFF00000000 + 0x0A000000) (96 + 8) :=
    .v4 (v := 0x0A000000) (s := "8".toList) (by decide) (by decide) (by decide) (by decide)
  have h2 : Network "[::]/120".toList 0 120 :=
    .bracket (u := "::".toList) (s := "120".toList) (by decide)
      (.zip (p := []) (ps := []) (z := 8) (q := []) (qs := []) (.inl ⟨rfl, rfl⟩) (.inl ⟨rfl, rfl⟩) (by decide) (by decide))
      (by decide) (by decide) (by decide)
  have h3 : Network "1.2.3.4".toList (0xFFFF00000000 + 0x01020304) 128 := .host (.inl ⟨0x01020304, by decide, by decide, rfl⟩)
  have hf : fields (separates accessParser) "10.0.0.0/8, [::]/120,1.2.3.4".toList
      = ["10.0.0.0/8".toList, " [::]/120".toList, "1.2.3.4".toList] := by
    decide +kernel
  have ht : Trims "10.0.0.0/8".toList "10.0.0.0/8".toList := trims_self (by decide) (by decide)
  obtain ⟨l, j1, _, _, j2⟩ := C82_list_partial sampleEnv accessParser "10.0.0.0/8, [::]/120,1.2.3.4".toList accessParser_reads
    (by decide) (by
      rw [hf]
      intro e he _
      rcases List.mem_cons.1 he with rfl | he
      · exact ⟨_, _, _, ht, h1⟩
      · rcases List.mem_cons.1 he with rfl | he
        · exact ⟨_, _, _, ⟨" ".toList, [], rfl, by decide, by decide, by decide, by decide⟩, h2⟩
        · rw [List.mem_singleton] at he
          subst he
          exact ⟨_, _, _, trims_self (by decide) (by decide), h3⟩)
  obtain ⟨b, j3, j4⟩ := j2 (sampleV4 10 5 5 5)
  rw [j4.2 ⟨_, by rw [hf]; exact List.mem_cons_self, _, _, _, ht, h1, by unfold InNetwork; decide +kernel⟩] at j3
  exact ⟨l, j1, j3⟩

end Verif
