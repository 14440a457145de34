import Verif.Lemmas.MaskText
import Verif.Props.AccessList

/-!
# Property C88: the language of the parser with masks
-/

namespace Verif

open Spec

/-- A parser of one entry with a mask which is a number of bits, without lookups and without a default mask. -/
structure ReadsMask (p : Parser) (inp : Str) : Prop where
  lookup : p.config.flags .addressLookup = false
  mask : p.config.flags .mask = true
  addressMask : p.config.flags .addressMask = false
  range : p.config.flags .addressRange = false ∨ '-' ∉ inp
  protocol : p.config.protocol = -1 ∨ p.config.protocol = IPPROTO_IP ∨ p.config.protocol = IPPROTO_TCP ∨ p.config.protocol = IPPROTO_UDP
  one : OneEntry p inp
  sort : Unsorted p
  default4 : p.config.defaultMask4 = []
  default6 : p.config.defaultMask6 = []

/-! ### The vocabulary above in terms of the model -/

theorem cutMask_split {t e m : Str} (h : CutMask t e m) : (Parser.splitFirst '/' t).getD (t, []) = (e, m) := by
  obtain ⟨h1, ⟨rfl, rfl⟩ | rfl⟩ := h
  · rw [Parser.splitFirst_none.2 h1]
    rfl
  · rw [Parser.splitFirst_append h1]
    rfl

theorem cutMask_mem {t e m : Str} (h : CutMask t e m) : (∀ c ∈ e, c ∈ t) ∧ ∀ c ∈ m, c ∈ t := by
  obtain ⟨_, ⟨rfl, rfl⟩ | rfl⟩ := h
  · exact ⟨fun _ h => h, fun _ h => nomatch h⟩
  · exact ⟨fun c h => List.mem_append_left _ h, fun c h => List.mem_append_right _ (List.mem_cons_of_mem _ h)⟩

/-- The text of an entry: not left out, and the number of bits. -/
theorem entry_bits_of {P : Prop} {p : Parser} {e u q : Str} (he : Entry (PortsAllowed p) e u q) (hne : u ≠ []) (hb : u.head? ≠ some '[')
    (hr : ']' ∉ u) (v4 : ':' ∉ u → P) (hu0 : u.head? ≠ some ':' ∨ 2 ≤ u.count ':') :
    (e ≠ [] ∧ (2 ≤ e.count ':' ∨ e.head? ≠ some ':'))
      ∧ (P ∧ Parser.asIpv4 p.config e = true ∧ entryBits e = 32 ∨ Parser.asIpv4 p.config e = false ∧ entryBits e = 128) := by
  have six (h : ¬ WrittenAsIpv4 p e) : Parser.asIpv4 p.config e = false := by
    cases h' : Parser.asIpv4 p.config e with
    | false => rfl
    | true => exact absurd ((asIpv4_iff p e).1 h') h
  cases he with
  | bare4 h =>
    refine ⟨⟨hne, hu0.symm⟩, .inl ⟨v4 h, (asIpv4_iff p e).2 ⟨?_, hb, hr, .inr (.inr (.inl h))⟩, ?_⟩⟩
    · rw [List.count_eq_zero.2 h]
      decide
    · rw [entryBits, if_neg]
      rintro (h' | h')
      · exact hr h'
      · rw [List.count_eq_zero.2 h] at h'
        omega
  | port4 h hq hp =>
    have hcount : (u ++ ':' :: q).count ':' = 1 := by
      rw [List.count_append, List.count_cons_self, List.count_eq_zero.2 h, List.count_eq_zero.2 hq]
    refine ⟨⟨by simp, .inr ?_⟩, ?_⟩
    · rw [Parser.head_append hne]
      exact fun h' => h (List.mem_of_head? h')
    · by_cases hq' : ']' ∈ u ++ ':' :: q
      · refine .inr ⟨six fun h' => h'.2.2.1 hq', ?_⟩
        rw [entryBits, if_pos (.inl hq')]
      · refine .inl ⟨v4 h, (asIpv4_iff p _).2 ⟨by omega, by rw [Parser.head_append hne]; exact hb, hq', ?_⟩, ?_⟩
        · rcases hp with hp | hp
          · exact .inl hp
          · exact .inr (.inl hp)
        · rw [entryBits, if_neg]
          rintro (h' | h')
          · exact hq' h'
          · omega
  | bare6 h =>
    refine ⟨⟨hne, .inl h⟩, .inr ⟨six fun h' => absurd h'.1 (by omega), ?_⟩⟩
    rw [entryBits, if_pos (.inr h)]
  | bracket =>
    refine ⟨⟨by simp, .inr (by simp)⟩, .inr ⟨six fun h' => h'.2.1 rfl, ?_⟩⟩
    rw [entryBits, if_pos (.inl (by simp))]
  | port6 hp =>
    refine ⟨⟨by simp, .inr (by simp)⟩, .inr ⟨six fun h' => h'.2.1 rfl, ?_⟩⟩
    rw [entryBits, if_pos (.inl (by simp))]

/-- The text of an entry with an address: not left out, and the number of bits. -/
theorem entry_bits {p : Parser} {e u q : Str} {n : Nat} (he : Entry (PortsAllowed p) e u q) (ha : AddressOf u n) :
    (e ≠ [] ∧ (2 ≤ e.count ':' ∨ e.head? ≠ some ':'))
      ∧ (isV4 n ∧ Parser.asIpv4 p.config e = true ∧ entryBits e = 32 ∨ Parser.asIpv4 p.config e = false ∧ entryBits e = 128) := by
  have hc := Parser.address_chars ha
  have hne := Parser.address_ne ha
  have hb : u.head? ≠ some '[' := fun h => absurd (hc _ (List.mem_of_head? h)) (by decide)
  have hr : ']' ∉ u := fun h => absurd (hc _ h) (by decide)
  have v4 : ':' ∉ u → isV4 n := by
    intro h
    rcases ha with ⟨v, hv, rfl, rfl⟩ | ⟨_, ha⟩
    · exact isV4_mapped hv
    · have := Parser.text_colons ha
      rw [List.count_eq_zero.2 h] at this
      omega
  have hu0 : u.head? ≠ some ':' ∨ 2 ≤ u.count ':' := by
    rcases Parser.address_colon ha with h | h
    · exact .inl fun h' => h.1 (List.mem_of_head? h')
    · exact .inr h
  exact entry_bits_of he hne hb hr v4 hu0

/-- The entry, once its address is read. -/
theorem parse_readsMask {env : ParseEnv} {p : Parser} {inp t e m : Str} (h : ReadsMask p inp) (ht : Trims inp t) (hcut : CutMask t e m)
    {p1 p2 : Parser} {v4 : Bool} {l l2 : List Range} (h1 : Parser.parseAddress env e m [] p = (p1, .ok (v4, l)))
    (h2 : Parser.maskLoop env m v4 l p1 = (p2, .ok l2)) :
    Parser.parse env inp p = (p2, .ok (if p.errorCount = p2.errorCount then l2 else [])) := by
  rw [parse_one_unsorted env inp p h.one h.sort, Parser.parseCidr_mask env inp [] p h.mask, trims_eq ht, cutMask_split hcut]
  dsimp only
  rw [h1]
  dsimp only
  rw [h2]
  rfl

/-! ### C88 -/

/-- C88: an entry followed by a mask is accepted, the mask is made of this number of ones. -/
theorem C88_accepted (env : ParseEnv) (p : Parser) (inp t e m u q : Str) (n port k : Nat) (h : ReadsMask p inp) (ht : Trims inp t)
    (hcut : CutMask t e m) (he : Entry (PortsAllowed p) e u q) (ha : AddressOf u n) (hq : PortOf env p.config q port) (hm : MaskOf e m k) :
    ∃ r, Parser.parse env inp p = (p, .ok [r]) ∧ r.hasFrom = true ∧ r.hasTo = false ∧ ip r.lo.getIpv6.addr = n ∧ r.lo.getPort = port
      ∧ ip r.lo.getMask = prefixMask k ∧ r.lo.hostname = u ∧ (r.lo.portDefined = true ↔ q ≠ []) := by
  obtain ⟨hh, hbits⟩ := entry_bits he ha
  obtain ⟨v4, r, b, h1, h2, h3⟩ := Parser.parseAddress_accepts (env := env) ⟨h.lookup, h.protocol⟩ he ha hq
  have hv := Parser.parseAddress_fst env e [] [] p p _ hh h1
  dsimp only at hv
  rw [← Parser.parseAddress_mask env e m [] p hh] at h1
  have haddr : ip r.lo.getIpv6.addr = n := by
    rw [Addr.getIpv6, h3.address]
    exact h2
  have hport : r.lo.getPort = port := by
    rw [Addr.getPort, h3.address]
    show (swap16 (swap16 (BitVec.ofNat 16 port))).toNat = port
    rw [swap16_swap16, BitVec.toNat_ofNat, Nat.mod_eq_of_lt (by have := hq.1; omega)]
  have hlimit : Parser.maskLimit (v4 && r.lo.isIpv4) = entryBits e := by
    rcases hbits with ⟨i1, i2, i3⟩ | ⟨i1, i2⟩
    · rw [hv, i2, i3, (isIpv4_iff r.lo).2 (by show isV4 (ip r.lo.getIpv6.addr); rw [haddr]; exact i1)]
      rfl
    · rw [hv, i1, i2]
      rfl
  have hle : entryBits e ≤ 128 := by
    rw [entryBits]
    split <;> omega
  rcases hm with ⟨rfl, rfl⟩ | ⟨m0, m1, m2, rfl⟩
  · refine ⟨r, ?_, h3.hasFrom, h3.hasTo, haddr, hport, ?_, h3.hostname, by rw [h3.portDefined, decide_eq_true_eq]⟩
    · have hchoose : Parser.chooseMask p.config [] v4 = [] := by
        rw [Parser.chooseMask, if_neg (by simp), h.default4, h.default6]
        simp
      have := parse_readsMask h ht hcut h1 (p2 := p) (l2 := [r]) (by
        rw [Parser.maskLoop, PM.config_bind, hchoose]
        rfl)
      rw [this, if_pos rfl]
    · rw [Addr.getMask, h3.mask]
      decide
  · refine ⟨{ r with lo := Parser.withMask (v4 && r.lo.isIpv4) (Nat.ofDigitChars 10 m 0) r.lo }, ?_, ?_⟩
    · have := parse_readsMask h ht hcut h1 (p2 := p)
        (Parser.maskLoop_ok env m m0 m1 v4 [r] (fun x hx => by rw [List.mem_singleton.1 hx, hlimit]; exact m2) p)
      rw [this, if_pos rfl]
      rfl
    · refine ⟨h3.hasFrom, h3.hasTo, haddr, hport, ?_, h3.hostname, by show r.lo.portDefined = true ↔ _; rw [h3.portDefined, decide_eq_true_eq]⟩
      show ip (prefixBytes _) = _
      rw [hlimit, ip_prefixBytes _ (by omega), Nat.add_comm]

/-- C88: any other text is refused: no range, one more error. -/
theorem C88_refused (env : ParseEnv) (p : Parser) (inp t e m : Str) (h : ReadsMask p inp) (ht : Trims inp t) (hcut : CutMask t e m)
    (hnul : '\x00' ∉ t) (hl : p.config.flags .requiredAddress = true ∨ ¬ LeftOut e)
    (hno : ¬ ∃ u q n port k, Entry (PortsAllowed p) e u q ∧ AddressOf u n ∧ PortOf env p.config q port ∧ MaskOf e m k) :
    ∃ p', Parser.parse env inp p = (p', .ok []) ∧ p'.config = p.config ∧ p'.getErrorCount = p.getErrorCount + 1
      ∧ p'.hasErrors = true ∧ p.errorMessages <+: p'.errorMessages := by
  have key (msg : Str) (l : List Range) (v4 : Bool) (p1 : Parser) (h1 : Parser.parseAddress env e m [] p = (p1, .ok (v4, l)))
      (l2 : List Range) (h2 : Parser.maskLoop env m v4 l p1 = (Parser.emitAll [msg] p, .ok l2)) :
      ∃ p', Parser.parse env inp p = (p', .ok []) ∧ p'.config = p.config ∧ p'.getErrorCount = p.getErrorCount + 1
        ∧ p'.hasErrors = true ∧ p.errorMessages <+: p'.errorMessages := by
    refine ⟨Parser.emitAll [msg] p, ?_, rfl, ?_, ?_, ?_⟩
    · rw [parse_readsMask h ht hcut h1 h2, if_neg]
      simp [Parser.emitAll]
    · simp [Parser.emitAll, Parser.getErrorCount]
    · simp [Parser.emitAll, Parser.hasErrors]
    · simp [Parser.emitAll, Parser.errorMessages]
  obtain ⟨m1, m2⟩ := cutMask_mem hcut
  by_cases hacc : ∃ u q n port, Entry (PortsAllowed p) e u q ∧ AddressOf u n ∧ PortOf env p.config q port
  · obtain ⟨u, q, n, port, he, ha, hq⟩ := hacc
    have hno' : ¬ ∃ k, MaskOf e m k := fun ⟨k, hk⟩ => hno ⟨u, q, n, port, k, he, ha, hq, hk⟩
    obtain ⟨hh, hbits⟩ := entry_bits he ha
    obtain ⟨v4, r, b, h1, h2, h3⟩ := Parser.parseAddress_accepts (env := env) ⟨h.lookup, h.protocol⟩ he ha hq
    have hv := Parser.parseAddress_fst env e [] [] p p _ hh h1
    dsimp only at hv
    rw [← Parser.parseAddress_mask env e m [] p hh] at h1
    have haddr : ip r.lo.getIpv6.addr = n := by
      rw [Addr.getIpv6, h3.address]
      exact h2
    have hlimit : Parser.maskLimit (v4 && r.lo.isIpv4) = entryBits e := by
      rcases hbits with ⟨i1, i2, i3⟩ | ⟨i1, i2⟩
      · rw [hv, i2, i3, (isIpv4_iff r.lo).2 (by show isV4 (ip r.lo.getIpv6.addr); rw [haddr]; exact i1)]
        rfl
      · rw [hv, i1, i2]
        rfl
    have m0 : m ≠ [] := fun e0 => hno' ⟨128, .inl ⟨e0, rfl⟩⟩
    obtain ⟨msg, hmsg⟩ := Parser.parseMask_refuses env m0 (fun hx => hnul (m2 _ hx)) r.lo (v4 && r.lo.isIpv4) p h.addressMask (by
      rw [hlimit]
      exact fun ⟨k1, k2⟩ => hno' ⟨_, .inr ⟨m0, k1, k2, rfl⟩⟩)
    refine key msg [r] v4 p h1 [r] ?_
    have hchoose : Parser.chooseMask p.config m v4 = m := by rw [Parser.chooseMask, if_pos m0]
    rw [Parser.maskLoop, PM.config_bind, hchoose, PM.bind_of_ok hmsg]
    rfl
  · obtain ⟨v4, msg, h1⟩ := Parser.parseAddress_refuses_mask (env := env) h.lookup (t := e) m (fun hx => hnul (m1 _ hx))
      (h.range.imp_right fun h' h2 => h' (trims_mem ht _ (m1 _ h2))) hl
      (fun ⟨u, q, h1, n, port, h2, h3⟩ => hacc ⟨u, q, n, port, h1, h2, h3⟩)
    exact key msg [] v4 _ h1 [] rfl

/-- C88: the texts accepted are those of the language. -/
theorem C88_language (env : ParseEnv) (p : Parser) (inp t e m : Str) (h : ReadsMask p inp) (ht : Trims inp t) (hcut : CutMask t e m)
    (hnul : '\x00' ∉ t) (hl : p.config.flags .requiredAddress = true ∨ ¬ LeftOut e) :
    (∃ r, (Parser.parse env inp p).2 = .ok [r])
      ↔ ∃ u q n port k, Entry (PortsAllowed p) e u q ∧ AddressOf u n ∧ PortOf env p.config q port ∧ MaskOf e m k := by
  constructor
  · rintro ⟨r, hr⟩
    refine Classical.byContradiction fun hno => ?_
    obtain ⟨p', h1, _⟩ := C88_refused env p inp t e m h ht hcut hnul hl hno
    rw [h1] at hr
    cases hr
  · rintro ⟨u, q, n, port, k, he, ha, hq, hm⟩
    obtain ⟨r, hr, _⟩ := C88_accepted env p inp t e m u q n port k h ht hcut he ha hq hm
    exact ⟨r, by rw [hr]⟩

/-- C88: the addresses which the result matches are those of the network which is written. -/
theorem C88_matches (env : ParseEnv) (p : Parser) (inp t e m u q : Str) (n port k : Nat) (h : ReadsMask p inp) (ht : Trims inp t)
    (hcut : CutMask t e m) (he : Entry (PortsAllowed p) e u q) (ha : AddressOf u n) (hq : PortOf env p.config q port) (hm : MaskOf e m k) :
    ∃ l, Parser.parse env inp p = (p, .ok l)
      ∧ ∀ a : Addr, ∃ b, addressMatchRanges l a = .ok b ∧ (b = true ↔ InNetwork (ip a.getIpv6.addr) n k) := by
  obtain ⟨r, h1, h2, h3, h4, _, h5, _⟩ := C88_accepted env p inp t e m u q n port k h ht hcut he ha hq hm
  have hk : k ≤ 128 := by
    rcases hm with ⟨_, rfl⟩ | ⟨_, _, h6, rfl⟩
    · omega
    · have : entryBits e ≤ 128 := by
        rw [entryBits]
        split <;> omega
      omega
  refine ⟨[r], h1, fun a => ?_⟩
  obtain ⟨b, h6, h7⟩ := C35_any_range [r] a
  refine ⟨b, h6, h7.trans ?_⟩
  rw [← network_match ⟨h2, h3, h4, hk, h5⟩ a]
  simp

/-! ### Examples -/

theorem maskParser_reads (inp : Str) (h : inp ≠ []) : ReadsMask maskParser inp where
  lookup := by decide
  mask := by decide
  addressMask := by decide
  range := .inl (by decide)
  protocol := by decide
  one := ⟨h, fun x _ => by
    rw [separates, show maskParser.config.flags .multiAddressesCommas = false by decide,
      show maskParser.config.flags .multiAddressesSpaces = false by decide, show maskParser.config.flags .multiAddressesNewlines = false by decide]
    rfl, ⟨by decide, by decide⟩⟩
  sort := by unfold Unsorted; decide
  default4 := by decide
  default6 := by decide

/-- An IPv4 address in brackets gets a mask of IPv6: "[10.1.2.3]:80/8" is the network of the addresses which start with eight zeros. -/
example : ∃ l, Parser.parse sampleEnv " [10.1.2.3]:80/8".toList maskParser = (maskParser, .ok l)
    ∧ ∀ a : Addr, ∃ b, addressMatchRanges l a = .ok b ∧ (b = true ↔ InNetwork (ip a.getIpv6.addr) 0xFFFF0A010203 8) :=
  C88_matches sampleEnv maskParser " [10.1.2.3]:80/8".toList "[10.1.2.3]:80/8".toList "[10.1.2.3]:80".toList "8".toList "10.1.2.3".toList "80".toList
    0xFFFF0A010203 80 8 (maskParser_reads _ (by decide)) ⟨" ".toList, [], rfl, by decide, by decide, by decide, by decide⟩
    ⟨by decide, .inr rfl⟩ (Entry.port6 (u := "10.1.2.3".toList) (q := "80".toList) (.inl (by decide)))
    (.inl ⟨0x0A010203, by decide, by decide, rfl⟩) ⟨by decide, by rw [if_pos (by decide)]; exact ⟨.inl (by decide), by decide⟩⟩
    (.inr ⟨by decide, by decide, by decide, by decide⟩)

/-- "10.1.2.3/" is an address without a mask, "10.1.2.3/33", "10.1.2.3/2x" and "10.1.2.3/8/8" are refused. -/
example : maskSizes (Parser.parse sampleEnv "10.1.2.3/".toList maskParser).2 = some [128]
    ∧ (Parser.parse sampleEnv "10.1.2.3/33".toList maskParser).1.getErrorCount = 1
    ∧ (Parser.parse sampleEnv "10.1.2.3/2x".toList maskParser).1.getErrorCount = 1
    ∧ (Parser.parse sampleEnv "10.1.2.3/8/8".toList maskParser).1.getErrorCount = 1 := by
  refine ⟨?_, ?_, ?_, ?_⟩ <;> decide +kernel

end Verif
