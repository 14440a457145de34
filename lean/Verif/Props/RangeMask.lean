import Verif.SpecRangeMask
import Verif.Props.RangeText
import Verif.Props.MaskText

/-!
# Property C97: masks written after ranges
-/

namespace Verif

open Spec

/-- A parser of one range with a mask which is a number of bits, without lookups and without a default mask. -/
structure ReadsRangeMask (p : Parser) (inp : Str) : Prop where
  lookup : p.config.flags .addressLookup = false
  mask : p.config.flags .mask = true
  addressMask : p.config.flags .addressMask = false
  range : p.config.flags .addressRange = true
  protocol : p.config.protocol = -1 ∨ p.config.protocol = IPPROTO_IP ∨ p.config.protocol = IPPROTO_TCP ∨ p.config.protocol = IPPROTO_UDP
  one : OneEntry p inp
  sort : Unsorted p
  default4 : p.config.defaultMask4 = []
  default6 : p.config.defaultMask6 = []

/-- The first bound of a range: not there, or an address with this number and port, and a mask of this number of ones. -/
def FirstIs (has : Bool) (a : Addr) (port : Nat) (d : Bool) (k : Nat) : Option Nat → Prop
  | none => has = false
  | some n => has = true ∧ ip a.getIpv6.addr = n ∧ a.getPort = port ∧ a.portDefined = d ∧ ip a.getMask = prefixMask k

/-- The range is left out: it is empty and the parser drops empty ranges. -/
def Dropped (p : Parser) (lo hi : Option Nat) : Prop := p.config.sort &&& SORT_NO_EMPTY ≠ 0 ∧ NoneBetween lo hi

/-! ### The vocabulary above in terms of the model -/

theorem parse_readsRangeMask {env : ParseEnv} {p : Parser} {inp t e m : Str} (h : ReadsRangeMask p inp) (ht : Trims inp t)
    (hcut : CutMask t e m) {p1 p2 : Parser} {v4 : Bool} {l l2 : List Range} (h1 : Parser.parseAddress env e m [] p = (p1, .ok (v4, l)))
    (h2 : Parser.maskLoop env m v4 l p1 = (p2, .ok l2)) :
    Parser.parse env inp p = (p2, .ok (if p.errorCount = p2.errorCount then l2 else [])) := by
  rw [parse_one_unsorted env inp p h.one h.sort, Parser.parseCidr_mask env inp [] p h.mask, trims_eq ht, cutMask_split hcut]
  dsimp only
  rw [h1]
  dsimp only
  rw [h2]
  rfl

/-- The text of an entry with a range: not left out, and the number of bits. -/
theorem range_bits {p : Parser} {e u q : Str} {lo hi : Option Nat} (he : Entry (PortsAllowed p) e u q) (hr : WrittenRange u lo hi) :
    (e ≠ [] ∧ (2 ≤ e.count ':' ∨ e.head? ≠ some ':'))
      ∧ ((∀ n, lo = some n → isV4 n) ∧ Parser.asIpv4 p.config e = true ∧ entryBits e = 32
        ∨ Parser.asIpv4 p.config e = false ∧ entryBits e = 128) := by
  have hc := Parser.bounds_chars hr
  have v4 : ∀ {u : Str} {n : Nat}, AddressOf u n → ':' ∉ u → isV4 n := by
    intro u n ha h
    rcases ha with ⟨v, hv, rfl, rfl⟩ | ⟨_, ha⟩
    · exact isV4_mapped hv
    · have := Parser.text_colons ha
      rw [List.count_eq_zero.2 h] at this
      omega
  have hu0 : ∀ {u : Str} {n : Nat}, AddressOf u n → u.head? ≠ some ':' ∨ 2 ≤ u.count ':' := by
    intro u n ha
    rcases Parser.address_colon ha with h | h
    · exact .inl fun h' => h.1 (List.mem_of_head? h')
    · exact .inr h
  refine entry_bits_of he (Parser.bounds_ne hr) (fun h => absurd (hc _ (List.mem_of_head? h)) (by decide))
    (fun h => absurd (hc _ h) (by decide)) ?_ ?_
  · intro hcol n hn
    cases hr with
    | one h =>
      cases hn
      exact v4 h hcol
    | start h =>
      cases hn
      exact v4 h fun h' => hcol (List.mem_append_left _ h')
    | stop h => cases hn
    | both h _ =>
      cases hn
      exact v4 h fun h' => hcol (List.mem_append_left _ h')
  · cases hr with
    | one h => exact hu0 h
    | start h =>
      rcases hu0 h with h1 | h1
      · exact .inl (by rw [Parser.head_append (Parser.address_ne h)]; exact h1)
      · exact .inr (by rw [List.count_append]; omega)
    | stop h => exact .inl (by simp)
    | both h _ =>
      rcases hu0 h with h1 | h1
      · exact .inl (by rw [Parser.head_append (Parser.address_ne h)]; exact h1)
      · exact .inr (by rw [List.count_append]; omega)

theorem entryBits_le (e : Str) : entryBits e ≤ 128 := by
  rw [entryBits]
  split <;> omega

theorem rangeBits_le (e : Str) (lo : Option Nat) : rangeBits e lo ≤ 128 := by
  cases lo with
  | none => exact Nat.le_refl _
  | some n => exact entryBits_le e

theorem range_limit {p : Parser} {e u q : Str} {lo hi : Option Nat} {port : Nat} {d v4 : Bool} {r : Range}
    (he : Entry (PortsAllowed p) e u q) (hr : WrittenRange u lo hi) (hv : v4 = Parser.asIpv4 p.config e)
    (hb : Parser.IsBound r.hasFrom r.lo port d lo) : Parser.maskLimit (v4 && r.lo.isIpv4) = rangeBits e lo := by
  cases lo with
  | none =>
    rw [hb.2, show Addr.default.isIpv4 = false by decide, Bool.and_false]
    rfl
  | some n =>
    rcases (range_bits he hr).2 with ⟨i1, i2, i3⟩ | ⟨i1, i2⟩
    · rw [hv, i2, (isIpv4_iff r.lo).2 (by show isV4 (ip r.lo.getIpv6.addr); rw [hb.2.1]; exact i1 n rfl)]
      exact i3.symm
    · rw [hv, i1, Bool.false_and]
      exact i2.symm

/-! ### C97 -/

/-- C97: a range followed by a mask is accepted, the mask becomes that of the first bound. A range which is dropped is accepted with any mask. -/
theorem C97_accepted (env : ParseEnv) (p : Parser) (inp t e m u q : Str) (lo hi : Option Nat) (port : Nat) (h : ReadsRangeMask p inp)
    (ht : Trims inp t) (hcut : CutMask t e m) (he : Entry (PortsAllowed p) e u q) (hr : WrittenRange u lo hi) (hq : PortOf env p.config q port) :
    (∀ k, ¬ Dropped p lo hi → RangeMaskOf e m lo k →
      ∃ r, Parser.parse env inp p = (p, .ok [r]) ∧ FirstIs r.hasFrom r.lo port (decide (q ≠ [])) k lo
        ∧ BoundIs r.hasTo r.hi port (decide (q ≠ [])) hi)
      ∧ (Dropped p lo hi → Parser.parse env inp p = (p, .ok [])) := by
  obtain ⟨g1, g2⟩ := Parser.rangeEntry_accepts (env := env) ⟨h.lookup, h.protocol⟩ h.range he hr hq
  have hh := (range_bits he hr).1
  constructor
  · intro k hn hm
    obtain ⟨v4, r, h1, h2, h3⟩ := g1 hn
    have hv := Parser.parseAddress_fst env e [] [] p p _ hh h1
    dsimp only at hv
    rw [← Parser.parseAddress_mask env e m [] p hh] at h1
    have hlimit := range_limit he hr hv h2
    have hle := rangeBits_le e lo
    rcases hm with ⟨rfl, rfl⟩ | ⟨m0, m1, m2, rfl⟩
    · refine ⟨r, ?_, ?_, isBound_boundIs h3⟩
      · have hchoose : Parser.chooseMask p.config [] v4 = [] := by
          rw [Parser.chooseMask, if_neg (by simp), h.default4, h.default6]
          simp
        have := parse_readsRangeMask h ht hcut h1 (p2 := p) (l2 := [r]) (by
          rw [Parser.maskLoop, PM.config_bind, hchoose]
          rfl)
        rw [this, if_pos rfl]
      · cases lo with
        | none => exact h2.1
        | some n => exact ⟨h2.1, h2.2.1, h2.2.2.1, h2.2.2.2.1, by rw [h2.2.2.2.2]; decide⟩
    · refine ⟨{ r with lo := Parser.withMask (v4 && r.lo.isIpv4) (Nat.ofDigitChars 10 m 0) r.lo }, ?_, ?_, isBound_boundIs h3⟩
      · have := parse_readsRangeMask h ht hcut h1 (p2 := p)
          (Parser.maskLoop_ok env m m0 m1 v4 [r] (fun x hx => by rw [List.mem_singleton.1 hx, hlimit]; exact m2) p)
        rw [this, if_pos rfl]
        rfl
      · cases lo with
        | none => exact h2.1
        | some n =>
          refine ⟨h2.1, h2.2.1, h2.2.2.1, h2.2.2.2.1, ?_⟩
          show ip (prefixBytes _) = _
          rw [hlimit, ip_prefixBytes _ (by omega), Nat.add_comm]
  · intro hn
    obtain ⟨v4, h1⟩ := g2 hn.1 hn.2
    rw [← Parser.parseAddress_mask env e m [] p hh] at h1
    have := parse_readsRangeMask h ht hcut h1 (p2 := p) (l2 := []) rfl
    rw [this, if_pos rfl]

/-- C97: the addresses which the result matches. The mask counts only when the range has a first bound and no last one. -/
theorem C97_matches (env : ParseEnv) (p : Parser) (inp t e m u q : Str) (lo hi : Option Nat) (port k : Nat) (h : ReadsRangeMask p inp)
    (ht : Trims inp t) (hcut : CutMask t e m) (he : Entry (PortsAllowed p) e u q) (hr : WrittenRange u lo hi) (hq : PortOf env p.config q port)
    (hm : RangeMaskOf e m lo k) :
    ∃ l, Parser.parse env inp p = (p, .ok l)
      ∧ ∀ a : Addr, ∃ b, addressMatchRanges l a = .ok b ∧ (b = true ↔ InMasked (ip a.getIpv6.addr) lo hi k) := by
  obtain ⟨h1, h2⟩ := C97_accepted env p inp t e m u q lo hi port h ht hcut he hr hq
  by_cases hn : Dropped p lo hi
  · refine ⟨[], h2 hn, fun a => ⟨false, rfl, ?_⟩⟩
    obtain ⟨n, m, rfl, rfl, h3⟩ := hn.2
    simp only [Bool.false_eq_true, InMasked, InBounds, false_iff]
    omega
  · obtain ⟨r, h3, h4, h5⟩ := h1 k hn hm
    refine ⟨[r], h3, fun a => ?_⟩
    obtain ⟨b, j1, j2⟩ := C35_any_range [r] a
    refine ⟨b, j1, j2.trans ?_⟩
    have hk : k ≤ 128 := by
      have := rangeBits_le e lo
      rcases hm with ⟨_, rfl⟩ | ⟨_, _, h6, rfl⟩ <;> omega
    have key : r.matchAddr a = .ok true ↔ InMasked (ip a.getIpv6.addr) lo hi k := by
      cases lo with
      | none =>
        have h4 : r.hasFrom = false := h4
        have hw := written_some hr
        rw [bounds_match (lo := none) (hi := hi) h4 h5 hw a]
        cases hi <;> exact Iff.rfl
      | some n =>
        cases hi with
        | none => exact network_match ⟨h4.1, h5, h4.2.1, hk, h4.2.2.2.2⟩ a
        | some m' =>
          show _ ↔ InBounds (ip a.getIpv6.addr) (some n) (some m')
          have hr' : r.matchAddr a = ({ r with lo := { r.lo with mask := Vector.replicate 16 0xFF } } : Range).matchAddr a := by
            have i1 : r.hasFrom = true := h4.1
            have i2 : r.hasTo = true := h5.1
            simp only [Range.matchAddr, Range.isIn, Range.isEmpty, Range.isRange, i1, i2, Bool.and_true, Bool.not_true, Bool.false_eq_true, if_false, if_true]
            rfl
          rw [hr']
          exact bounds_match (r := { r with lo := { r.lo with mask := Vector.replicate 16 0xFF } }) (lo := some n) (hi := some m')
            (port := port) (d := decide (q ≠ [])) ⟨h4.1, h4.2.1, h4.2.2.1, h4.2.2.2.1, (by decide : ip (Vector.replicate 16 0xFF) = 2 ^ 128 - 1)⟩ h5 (.inl (by simp)) a
    rw [← key]
    simp

/-- C97: any other text is refused: no range, one more error. -/
theorem C97_refused (env : ParseEnv) (p : Parser) (inp t e m : Str) (h : ReadsRangeMask p inp) (ht : Trims inp t) (hcut : CutMask t e m)
    (hnul : '\x00' ∉ t) (hl : p.config.flags .requiredAddress = true ∨ ¬ LeftOut e)
    (hno : ¬ ∃ u q lo hi port, Entry (PortsAllowed p) e u q ∧ WrittenRange u lo hi ∧ PortOf env p.config q port
      ∧ (Dropped p lo hi ∨ ∃ k, RangeMaskOf e m lo k)) :
    ∃ p', Parser.parse env inp p = (p', .ok []) ∧ p'.config = p.config ∧ p'.getErrorCount = p.getErrorCount + 1
      ∧ p'.hasErrors = true ∧ p.errorMessages <+: p'.errorMessages := by
  have key (msg : Str) (l : List Range) (v4 : Bool) (p1 : Parser) (h1 : Parser.parseAddress env e m [] p = (p1, .ok (v4, l)))
      (l2 : List Range) (h2 : Parser.maskLoop env m v4 l p1 = (Parser.emitAll [msg] p, .ok l2)) :
      ∃ p', Parser.parse env inp p = (p', .ok []) ∧ p'.config = p.config ∧ p'.getErrorCount = p.getErrorCount + 1
        ∧ p'.hasErrors = true ∧ p.errorMessages <+: p'.errorMessages := by
    refine ⟨Parser.emitAll [msg] p, ?_, rfl, ?_, ?_, ?_⟩
    · rw [parse_readsRangeMask h ht hcut h1 h2, if_neg]
      simp [Parser.emitAll]
    · simp [Parser.emitAll, Parser.getErrorCount]
    · simp [Parser.emitAll, Parser.hasErrors]
    · simp [Parser.emitAll, Parser.errorMessages]
  obtain ⟨m1, m2⟩ := cutMask_mem hcut
  by_cases hacc : ∃ u q lo hi port, Entry (PortsAllowed p) e u q ∧ WrittenRange u lo hi ∧ PortOf env p.config q port
  · obtain ⟨u, q, lo, hi, port, he, hr, hq⟩ := hacc
    have hno1 : ¬ Dropped p lo hi := fun hd => hno ⟨u, q, lo, hi, port, he, hr, hq, .inl hd⟩
    have hno2 : ¬ ∃ k, RangeMaskOf e m lo k := fun hd => hno ⟨u, q, lo, hi, port, he, hr, hq, .inr hd⟩
    have hh := (range_bits he hr).1
    obtain ⟨v4, r, h1, h2, h3⟩ := (Parser.rangeEntry_accepts (env := env) ⟨h.lookup, h.protocol⟩ h.range he hr hq).1 hno1
    have hv := Parser.parseAddress_fst env e [] [] p p _ hh h1
    dsimp only at hv
    rw [← Parser.parseAddress_mask env e m [] p hh] at h1
    have hlimit := range_limit he hr hv h2
    have m0 : m ≠ [] := fun e0 => hno2 ⟨128, .inl ⟨e0, rfl⟩⟩
    obtain ⟨msg, hmsg⟩ := Parser.parseMask_refuses env m0 (fun hx => hnul (m2 _ hx)) r.lo (v4 && r.lo.isIpv4) p h.addressMask (by
      rw [hlimit]
      exact fun ⟨k1, k2⟩ => hno2 ⟨_, .inr ⟨m0, k1, k2, rfl⟩⟩)
    refine key msg [r] v4 p h1 [r] ?_
    have hchoose : Parser.chooseMask p.config m v4 = m := by rw [Parser.chooseMask, if_pos m0]
    rw [Parser.maskLoop, PM.config_bind, hchoose, PM.bind_of_ok hmsg]
    rfl
  · obtain ⟨v4, msg, h1⟩ := Parser.rangeEntry_refuses_mask (env := env) ⟨h.lookup, h.protocol⟩ h.range (t := e) m (fun hx => hnul (m1 _ hx)) hl hacc
    exact key msg [] v4 _ h1 [] rfl

/-- C97: the texts read without an error. -/
theorem C97_language (env : ParseEnv) (p : Parser) (inp t e m : Str) (h : ReadsRangeMask p inp) (ht : Trims inp t) (hcut : CutMask t e m)
    (hnul : '\x00' ∉ t) (hl : p.config.flags .requiredAddress = true ∨ ¬ LeftOut e) :
    (Parser.parse env inp p).1.getErrorCount = p.getErrorCount
      ↔ ∃ u q lo hi port, Entry (PortsAllowed p) e u q ∧ WrittenRange u lo hi ∧ PortOf env p.config q port
        ∧ (Dropped p lo hi ∨ ∃ k, RangeMaskOf e m lo k) := by
  constructor
  · intro hc
    refine Classical.byContradiction fun hno => ?_
    obtain ⟨p', h1, _, h2, _⟩ := C97_refused env p inp t e m h ht hcut hnul hl hno
    rw [h1, h2] at hc
    omega
  · rintro ⟨u, q, lo, hi, port, he, hr, hq, hd⟩
    obtain ⟨h1, h2⟩ := C97_accepted env p inp t e m u q lo hi port h ht hcut he hr hq
    by_cases hn : Dropped p lo hi
    · rw [h2 hn]
    · obtain ⟨k, hk⟩ := hd.resolve_left hn
      obtain ⟨r, h3, _⟩ := h1 k hn hk
      rw [h3]

/-! ### The mask should count -/

/-- C97 as one would like it: a mask which is accepted after a range counts, the addresses of the result are those of the networks of the
addresses of the range. -/
def C97_claim : Prop :=
  ∀ (env : ParseEnv) (p : Parser) (inp t e m u q : Str) (lo hi : Option Nat) (port k : Nat), ReadsRangeMask p inp → Trims inp t →
    CutMask t e m → Entry (PortsAllowed p) e u q → WrittenRange u lo hi → PortOf env p.config q port → RangeMaskOf e m lo k →
    ∀ l, (Parser.parse env inp p).2 = .ok l →
      ∀ a : Addr, ∀ b, addressMatchRanges l a = .ok b → (b = true ↔ InWidened (ip a.getIpv6.addr) lo hi k)

/-- C97: the claim holds for the ranges with a first bound only. -/
theorem C97_start_partial (env : ParseEnv) (p : Parser) (inp t e m u q : Str) (n : Nat) (port k : Nat) (h : ReadsRangeMask p inp)
    (ht : Trims inp t) (hcut : CutMask t e m) (he : Entry (PortsAllowed p) e u q) (hr : WrittenRange u (some n) none)
    (hq : PortOf env p.config q port) (hm : RangeMaskOf e m (some n) k) (l : List Range) (hl : (Parser.parse env inp p).2 = .ok l)
    (a : Addr) (b : Bool) (hb : addressMatchRanges l a = .ok b) : b = true ↔ InWidened (ip a.getIpv6.addr) (some n) none k := by
  obtain ⟨l', h1, h2⟩ := C97_matches env p inp t e m u q (some n) none port k h ht hcut he hr hq hm
  rw [h1] at hl
  cases hl
  obtain ⟨b', h3, h4⟩ := h2 a
  rw [h3] at hb
  cases hb
  rw [h4]
  constructor
  · exact fun hx => ⟨n, rfl, hx⟩
  · rintro ⟨y, rfl, hx⟩
    exact hx

/-! ### Examples -/

/-- A parser of one range with a mask. -/
def rangeMaskParser : Parser := ParserOp.runAll [(sampleEnv, .setAllow 6 true)] maskParser

theorem rangeMaskParser_reads (inp : Str) (h : inp ≠ []) : ReadsRangeMask rangeMaskParser inp where
  lookup := by decide
  mask := by decide
  addressMask := by decide
  range := by decide
  protocol := by decide
  one := ⟨h, fun x _ => by
    rw [separates, show rangeMaskParser.config.flags .multiAddressesCommas = false by decide,
      show rangeMaskParser.config.flags .multiAddressesSpaces = false by decide,
      show rangeMaskParser.config.flags .multiAddressesNewlines = false by decide]
    rfl, ⟨by decide, by decide⟩⟩
  sort := by unfold Unsorted; decide
  default4 := by decide
  default6 := by decide

/-- "10.0.0.1-10.0.0.9/24" is accepted and stands for nine addresses. -/
theorem C97_sample : ∃ l, Parser.parse sampleEnv "10.0.0.1-10.0.0.9/24".toList rangeMaskParser = (rangeMaskParser, .ok l)
    ∧ ∀ a : Addr, ∃ b, addressMatchRanges l a = .ok b ∧ (b = true ↔ InMasked (ip a.getIpv6.addr) (some 0xFFFF0A000001) (some 0xFFFF0A000009) 120) :=
  C97_matches sampleEnv rangeMaskParser "10.0.0.1-10.0.0.9/24".toList "10.0.0.1-10.0.0.9/24".toList "10.0.0.1-10.0.0.9".toList "24".toList
    "10.0.0.1-10.0.0.9".toList [] (some 0xFFFF0A000001) (some 0xFFFF0A000009) 0 120 (rangeMaskParser_reads _ (by decide))
    ⟨[], [], rfl, by decide, by decide, by decide, by decide⟩ ⟨by decide, .inr rfl⟩ (.bare4 (by decide))
    (.both (u := "10.0.0.1".toList) (v := "10.0.0.9".toList) (.inl ⟨0x0A000001, by decide, by decide, rfl⟩) (.inl ⟨0x0A000009, by decide, by decide, rfl⟩))
    ⟨by decide, by rw [if_neg (by decide)]; exact ⟨by decide, by decide⟩⟩ (.inr ⟨by decide, by decide, by decide, by decide⟩)

theorem C97_claim_fails : ¬ C97_claim := by
  intro hc
  obtain ⟨l, h1, h2⟩ := C97_sample
  obtain ⟨b, h3, h4⟩ := h2 (sampleV4 10 0 0 200)
  have h5 := hc sampleEnv rangeMaskParser "10.0.0.1-10.0.0.9/24".toList "10.0.0.1-10.0.0.9/24".toList "10.0.0.1-10.0.0.9".toList "24".toList
    "10.0.0.1-10.0.0.9".toList [] (some 0xFFFF0A000001) (some 0xFFFF0A000009) 0 120 (rangeMaskParser_reads _ (by decide))
    ⟨[], [], rfl, by decide, by decide, by decide, by decide⟩ ⟨by decide, .inr rfl⟩ (.bare4 (by decide))
    (.both (u := "10.0.0.1".toList) (v := "10.0.0.9".toList) (.inl ⟨0x0A000001, by decide, by decide, rfl⟩) (.inl ⟨0x0A000009, by decide, by decide, rfl⟩))
    ⟨by decide, by rw [if_neg (by decide)]; exact ⟨by decide, by decide⟩⟩ (.inr ⟨by decide, by decide, by decide, by decide⟩)
    l (by rw [h1]) (sampleV4 10 0 0 200) b h3
  have e : ip (sampleV4 10 0 0 200).getIpv6.addr = 0xFFFF0A0000C8 := by decide +kernel
  rw [e] at h4 h5
  have h6 : InWidened 0xFFFF0A0000C8 (some 0xFFFF0A000001) (some 0xFFFF0A000009) 120 := ⟨0xFFFF0A000001, ⟨by decide, by decide⟩, by unfold InNetwork; decide⟩
  have h7 := h4.1 (h5.2 h6)
  exact absurd h7 (by rintro ⟨_, h8⟩; revert h8; decide)

/-- "-10.0.0.9/100" is accepted, although an IPv4 address has 32 bits, and stands for one address; "10.0.0.1-10.0.0.9/33" is refused;
"10.0.0.9-10.0.0.1/x" is accepted when empty ranges are dropped. -/
example : (Parser.parse sampleEnv "-10.0.0.9/100".toList rangeMaskParser).1.getErrorCount = 0
    ∧ (Parser.parse sampleEnv "10.0.0.1-10.0.0.9/33".toList rangeMaskParser).1.getErrorCount = 1
    ∧ (Parser.parse sampleEnv "10.0.0.9-10.0.0.1/x".toList rangeMaskParser).1.getErrorCount = 1
    ∧ (Parser.parse sampleEnv "10.0.0.9-10.0.0.1/x".toList (ParserOp.runAll [(sampleEnv, .setSortOrder SORT_NO_EMPTY)] rangeMaskParser)).1.getErrorCount = 0 := by
  refine ⟨?_, ?_, ?_, ?_⟩ <;> decide +kernel

end Verif
