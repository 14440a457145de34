import Verif.SpecAccess
import Verif.Lemmas.RangeText
import Verif.Props.AccessList

/-!
# Property C86: the texts of ranges, and lists of networks and ranges
-/

namespace Verif

open Spec

/-- A parser which reads one address or one range without lookups, and no masks. -/
structure ReadsRange (p : Parser) (inp : Str) : Prop where
  lookup : p.config.flags .addressLookup = false
  mask : p.config.flags .mask = false
  range : p.config.flags .addressRange = true
  protocol : p.config.protocol = -1 ∨ p.config.protocol = IPPROTO_IP ∨ p.config.protocol = IPPROTO_TCP ∨ p.config.protocol = IPPROTO_UDP
  one : OneEntry p inp
  sort : Unsorted p

/-- One bound of a range: not there, or an address with this number and port, and a mask made of ones. -/
def BoundIs (has : Bool) (a : Addr) (port : Nat) (d : Bool) : Option Nat → Prop
  | none => has = false
  | some n => has = true ∧ ip a.getIpv6.addr = n ∧ a.getPort = port ∧ a.portDefined = d ∧ ip a.getMask = 2 ^ 128 - 1

theorem isBound_boundIs {has : Bool} {a : Addr} {port : Nat} {d : Bool} {o : Option Nat} (h : Parser.IsBound has a port d o) :
    BoundIs has a port d o := by
  cases o with
  | none => exact h.1
  | some n => exact h

theorem parse_readsRange {env : ParseEnv} {p : Parser} {inp t : Str} (h : ReadsRange p inp) (ht : Trims inp t) {q : Parser} {v4 : Bool}
    {l : List Range} (hp : Parser.parseAddress env t [] [] p = (q, .ok (v4, l))) : Parser.parse env inp p = (q, .ok l) := by
  rw [parse_one_unsorted env inp p h.one h.sort, Parser.parseCidr, PM.config_bind, trims_eq ht]
  dsimp only
  rw [if_neg (by rw [h.mask]; exact Bool.false_ne_true), PM.bind_of_ok hp]
  rfl

theorem written_some {u : Str} {lo hi : Option Nat} (h : WrittenRange u lo hi) : lo ≠ none ∨ hi ≠ none := by
  cases h <;> simp

theorem bounds_match {r : Range} {lo hi : Option Nat} {port : Nat} {d : Bool} (h1 : BoundIs r.hasFrom r.lo port d lo)
    (h2 : BoundIs r.hasTo r.hi port d hi) (h3 : lo ≠ none ∨ hi ≠ none) (a : Addr) :
    r.matchAddr a = .ok true ↔ InBounds (ip a.getIpv6.addr) lo hi := by
  have single : ∀ (s : Range) (n : Nat), s.hasFrom = true → s.hasTo = false → ip s.lo.getIpv6.addr = n → ip s.lo.getMask = 2 ^ 128 - 1 →
      (s.matchAddr a = .ok true ↔ ip a.getIpv6.addr = n) := by
    intro s n g1 g2 g3 g4
    rw [network_match (n := n) (k := 128) ⟨g1, g2, g3, by decide, by rw [g4]; decide⟩ a, InNetwork]
    simp
  cases lo with
  | none =>
    cases hi with
    | none => exact absurd rfl (h3.elim id id)
    | some m =>
      have e : r.matchAddr a = r.swapFromTo.matchAddr a := by
        have g1 : r.hasFrom = false := h1
        simp [Range.matchAddr, Range.isEmpty, Range.isRange, Range.swapFromTo, g1, h2.1]
      rw [e]
      exact single r.swapFromTo m h2.1 h1 h2.2.1 h2.2.2.2.2
  | some n =>
    cases hi with
    | none => exact single r n h1.1 h2 h1.2.1 h1.2.2.2.2
    | some m =>
      obtain ⟨b, g1, g2⟩ := C24_match_complete r a ⟨h1.1, h2.1⟩
      rw [g1]
      have g3 : between (ip a.getIpv6.addr) (fromIp r) (toIp r) ↔ InBounds (ip a.getIpv6.addr) (some n) (some m) := by
        rw [← h1.2.1, ← h2.2.1]
        exact Iff.rfl
      rw [← g3, ← g2]
      constructor
      · intro h
        injection h
      · rintro rfl
        rfl

/-- C86: a range is read without an error, as the bounds which are written; a range without any address is left out when the sort order has
`SORT_NO_EMPTY`. -/
theorem C86_accepted (env : ParseEnv) (p : Parser) (inp t u q : Str) (lo hi : Option Nat) (port : Nat) (h : ReadsRange p inp)
    (ht : Trims inp t) (he : Entry (PortsAllowed p) t u q) (hr : WrittenRange u lo hi) (hq : PortOf env p.config q port) :
    (¬ (p.config.sort &&& SORT_NO_EMPTY ≠ 0 ∧ NoneBetween lo hi) →
      ∃ r, Parser.parse env inp p = (p, .ok [r]) ∧ BoundIs r.hasFrom r.lo port (decide (q ≠ [])) lo
        ∧ BoundIs r.hasTo r.hi port (decide (q ≠ [])) hi)
      ∧ (p.config.sort &&& SORT_NO_EMPTY ≠ 0 → NoneBetween lo hi → Parser.parse env inp p = (p, .ok [])) := by
  obtain ⟨h1, h2⟩ := Parser.rangeEntry_accepts (env := env) ⟨h.lookup, h.protocol⟩ h.range he hr hq
  constructor
  · intro hn
    obtain ⟨v4, r, h3, h4, h5⟩ := h1 hn
    exact ⟨r, parse_readsRange h ht h3, isBound_boundIs h4, isBound_boundIs h5⟩
  · intro hs hn
    obtain ⟨v4, h3⟩ := h2 hs hn
    exact parse_readsRange h ht h3

/-- C86: the addresses which match what is read are those between the bounds which are written, or the only one which is. -/
theorem C86_matches (env : ParseEnv) (p : Parser) (inp t u q : Str) (lo hi : Option Nat) (port : Nat) (h : ReadsRange p inp)
    (ht : Trims inp t) (he : Entry (PortsAllowed p) t u q) (hr : WrittenRange u lo hi) (hq : PortOf env p.config q port) :
    ∃ l, Parser.parse env inp p = (p, .ok l)
      ∧ ∀ a : Addr, ∃ b, addressMatchRanges l a = .ok b ∧ (b = true ↔ InBounds (ip a.getIpv6.addr) lo hi) := by
  obtain ⟨h1, h2⟩ := C86_accepted env p inp t u q lo hi port h ht he hr hq
  by_cases hn : p.config.sort &&& SORT_NO_EMPTY ≠ 0 ∧ NoneBetween lo hi
  · refine ⟨[], h2 hn.1 hn.2, fun a => ⟨false, rfl, ?_⟩⟩
    obtain ⟨n, m, rfl, rfl, h3⟩ := hn.2
    simp only [Bool.false_eq_true, InBounds, false_iff]
    omega
  · obtain ⟨r, h3, h4, h5⟩ := h1 hn
    refine ⟨[r], h3, fun a => ?_⟩
    obtain ⟨b, j1, j2⟩ := C35_any_range [r] a
    refine ⟨b, j1, j2.trans ?_⟩
    rw [← bounds_match h4 h5 (written_some hr) a]
    constructor
    · rintro ⟨r', hr', hm⟩
      rw [List.mem_singleton] at hr'
      exact hr' ▸ hm
    · exact fun hm => ⟨r, List.mem_singleton.2 rfl, hm⟩

/-- C86: any other text is refused: no range, one more error. -/
theorem C86_refused (env : ParseEnv) (p : Parser) (inp t : Str) (h : ReadsRange p inp) (ht : Trims inp t) (hnul : '\x00' ∉ t)
    (hl : p.config.flags .requiredAddress = true ∨ ¬ LeftOut t)
    (hno : ¬ ∃ u q lo hi port, Entry (PortsAllowed p) t u q ∧ WrittenRange u lo hi ∧ PortOf env p.config q port) :
    ∃ p', Parser.parse env inp p = (p', .ok []) ∧ p'.config = p.config ∧ p'.getErrorCount = p.getErrorCount + 1
      ∧ p'.hasErrors = true ∧ p.errorMessages <+: p'.errorMessages := by
  obtain ⟨v4, msg, h1⟩ := Parser.rangeEntry_refuses (env := env) ⟨h.lookup, h.protocol⟩ h.range hnul hl hno
  refine ⟨_, parse_readsRange h ht h1, rfl, ?_, ?_, ?_⟩
  · simp [Parser.emitAll, Parser.getErrorCount]
  · simp [Parser.emitAll, Parser.hasErrors]
  · simp [Parser.emitAll, Parser.errorMessages, List.append_assoc]

/-- C86: the texts read without an error are those of ranges. -/
theorem C86_language (env : ParseEnv) (p : Parser) (inp t : Str) (h : ReadsRange p inp) (ht : Trims inp t) (hnul : '\x00' ∉ t)
    (hl : p.config.flags .requiredAddress = true ∨ ¬ LeftOut t) :
    (Parser.parse env inp p).1.getErrorCount = p.getErrorCount
      ↔ ∃ u q lo hi port, Entry (PortsAllowed p) t u q ∧ WrittenRange u lo hi ∧ PortOf env p.config q port := by
  constructor
  · intro hc
    refine Classical.byContradiction fun hno => ?_
    obtain ⟨p', h1, _, h2, _⟩ := C86_refused env p inp t h ht hnul hl hno
    rw [h1, h2] at hc
    omega
  · rintro ⟨u, q, lo, hi, port, he, hr, hq⟩
    obtain ⟨l, h1, _⟩ := C86_matches env p inp t u q lo hi port h ht he hr hq
    rw [h1]

/-! ### Lists of networks and ranges -/

/-- A parser which reads a list of networks and ranges. -/
structure ReadsAccess (p : Parser) : Prop extends ReadsNetworks p where
  range : p.config.flags .addressRange = true

theorem entry_ports {t u q : Str} (h : Entry False t u q) (ports : Prop) : Entry ports t u q := by
  cases h with
  | bare4 h => exact .bare4 h
  | port4 _ _ hp => exact hp.elim
  | bare6 h => exact .bare6 h
  | bracket => exact .bracket
  | port6 hp => exact hp.elim

theorem range_slash {ports : Prop} {t u : Str} {lo hi : Option Nat} (he : Entry ports t u []) (h : WrittenRange u lo hi) : '/' ∉ t := by
  have hu : '/' ∉ u := fun h' => absurd (Parser.bounds_chars h _ h') (by decide)
  intro ht
  rcases entry_inv he with ⟨rfl, _⟩ | rfl | ⟨rfl, _⟩ | rfl
  · exact hu ht
  all_goals
    simp only [List.cons_append, List.mem_append, List.mem_cons, List.not_mem_nil, or_false] at ht
    revert ht
    simp [hu]

section
variable {env : ParseEnv} {p : Parser}

theorem parse_range_bounds (h : ReadsAccess p) (hs : Unsorted p) {e t u : Str} {lo hi : Option Nat} (hone : OneEntry p e) (ht : Trims e t)
    (he : Entry False t u []) (hr : WrittenRange u lo hi) :
    ∃ l, Parser.parse env e p = (p, .ok l) ∧ (∀ a : Addr, (∃ r ∈ l, r.matchAddr a = .ok true) ↔ InBounds (ip a.getIpv6.addr) lo hi)
      ∧ ∀ r ∈ l, BoundIs r.hasFrom r.lo 0 false lo ∧ BoundIs r.hasTo r.hi 0 false hi
        ∧ ¬ (p.config.sort &&& SORT_NO_EMPTY ≠ 0 ∧ NoneBetween lo hi) := by
  obtain ⟨h1, h2⟩ := Parser.rangeEntry_accepts (env := env) (p := p) ⟨h.lookup, h.protocol⟩ h.range (entry_ports he _) hr
    (portOf_none env h.port h.defaultPort)
  have hmask : ∀ v4, Parser.chooseMask p.config [] v4 = [] := fun v4 => by
    simp [Parser.chooseMask, h.mask4, h.mask6]
  have hsplit : Parser.splitFirst '/' t = none := Parser.splitFirst_none.2 (range_slash he hr)
  have key : ∀ v4 l, Parser.parseAddress env t [] [] p = (p, .ok (v4, l)) → Parser.maskLoop env [] v4 l p = (p, .ok l) →
      Parser.parse env e p = (p, .ok l) := by
    intro v4 l h1 hl
    rw [parse_one_unsorted env e p hone hs, Parser.parseCidr, PM.config_bind, trims_eq ht]
    dsimp only
    rw [if_pos h.mask, hsplit]
    show (Parser.errorCountNow >>= fun errcnt => Parser.parseAddress env t [] [] >>= fun x => Parser.maskLoop env [] x.1 x.2 >>= fun l =>
      Parser.errorCountNow >>= fun now => if errcnt = now then (Pure.pure ([] ++ l) : PM (List Range)) else Pure.pure []) p = _
    simp only [PM.bind_def, Parser.errorCountNow, h1, hl, if_true]
    rfl
  by_cases hn : p.config.sort &&& SORT_NO_EMPTY ≠ 0 ∧ NoneBetween lo hi
  · obtain ⟨v4, h3⟩ := h2 hn.1 hn.2
    refine ⟨[], key v4 [] h3 rfl, fun a => ?_, fun _ h => nomatch h⟩
    obtain ⟨n, m, rfl, rfl, h3⟩ := hn.2
    simp only [InBounds, List.not_mem_nil, false_and, exists_false, false_iff]
    omega
  · obtain ⟨v4, r, h3, h4, h5⟩ := h1 hn
    refine ⟨[r], key v4 [r] h3 ?_, fun a => ?_, fun r' hr' => ?_⟩
    · simp only [Parser.maskLoop, PM.config_bind, hmask, Parser.parseMask]
      rfl
    · rw [← bounds_match (isBound_boundIs h4) (isBound_boundIs h5) (written_some hr) a]
      simp
    · rw [List.mem_singleton] at hr'
      rw [hr']
      exact ⟨isBound_boundIs h4, isBound_boundIs h5, hn⟩

theorem parse_range (h : ReadsAccess p) (hs : Unsorted p) {e t u : Str} {lo hi : Option Nat} (hone : OneEntry p e) (ht : Trims e t)
    (he : Entry False t u []) (hr : WrittenRange u lo hi) :
    ∃ l, Parser.parse env e p = (p, .ok l) ∧ ∀ a : Addr, (∃ r ∈ l, r.matchAddr a = .ok true) ↔ InBounds (ip a.getIpv6.addr) lo hi := by
  obtain ⟨l, h1, h2, _⟩ := parse_range_bounds (env := env) h hs hone ht he hr
  exact ⟨l, h1, h2⟩

theorem parse_listed (h : ReadsAccess p) (hs : Unsorted p) {e t : Str} {S : Nat → Prop} (hone : OneEntry p e) (ht : Trims e t)
    (hl : Listed t S) :
    ∃ l, Parser.parse env e p = (p, .ok l) ∧ ∀ a : Addr, (∃ r ∈ l, r.matchAddr a = .ok true) ↔ S (ip a.getIpv6.addr) := by
  cases hl with
  | network hn =>
    obtain ⟨r, h1, h2⟩ := parse_network (env := env) h.toReadsNetworks hs hone.nonempty hone.separator ht hn
    refine ⟨[r], h1, fun a => ?_⟩
    show _ ↔ InNetwork _ _ _
    rw [← network_match h2 a]
    simp
  | range he hr => exact parse_range h hs hone ht he hr

/-- The entries one after the other. -/
theorem parseEach_listed (h : ReadsAccess p) (hs : Unsorted p) (es : List Str)
    (he : ∀ e ∈ es, OneEntry p e ∧ ∃ t S, Trims e t ∧ Listed t S) :
    ∃ l, parseEach env es p = (p, .ok l)
      ∧ ∀ a : Addr, (∃ r ∈ l, r.matchAddr a = .ok true) ↔ ∃ e ∈ es, ∃ t S, Trims e t ∧ Listed t S ∧ S (ip a.getIpv6.addr) := by
  induction es with
  | nil => exact ⟨[], rfl, fun a => by simp⟩
  | cons e es ih =>
    obtain ⟨l, h1, h2⟩ := ih fun e' he' => he e' (List.mem_cons_of_mem _ he')
    obtain ⟨g1, t, S, g3, g4⟩ := he e List.mem_cons_self
    obtain ⟨l', h4, h5⟩ := parse_listed (env := env) h hs g1 g3 g4
    refine ⟨l' ++ l, ?_, fun a => ?_⟩
    · simp only [parseEach, h4, h1]
    · have hhead : (∃ r ∈ l', r.matchAddr a = .ok true) ↔ ∃ t S, Trims e t ∧ Listed t S ∧ S (ip a.getIpv6.addr) := by
        constructor
        · exact fun hm => ⟨t, S, g3, g4, (h5 a).1 hm⟩
        · rintro ⟨t', S', k1, k2, k3⟩
          obtain ⟨l2, h6, h7⟩ := parse_listed (env := env) h hs g1 k1 k2
          rw [h4] at h6
          injection h6 with _ h6
          injection h6 with h6
          rw [h6]
          exact (h7 a).2 k3
      have htail := h2 a
      constructor
      · rintro ⟨r, hr, hm⟩
        rcases List.mem_append.1 hr with hr | hr
        · exact ⟨e, List.mem_cons_self, hhead.1 ⟨r, hr, hm⟩⟩
        · obtain ⟨e', k1, k2⟩ := htail.1 ⟨r, hr, hm⟩
          exact ⟨e', List.mem_cons_of_mem _ k1, k2⟩
      · rintro ⟨e', k1, k2⟩
        rcases List.mem_cons.1 k1 with rfl | k1
        · obtain ⟨r, k3, k4⟩ := hhead.2 k2
          exact ⟨r, List.mem_append_left _ k3, k4⟩
        · obtain ⟨r, k3, k4⟩ := htail.2 ⟨e', k1, k2⟩
          exact ⟨r, List.mem_append_right _ k3, k4⟩

theorem listed_ne {t : Str} {S : Nat → Prop} (h : Listed t S) : t ≠ [] := by
  cases h with
  | network h => exact network_ne h
  | range he hr =>
    have hu := Parser.bounds_ne hr
    rcases entry_inv he with ⟨rfl, _⟩ | rfl | ⟨rfl, _⟩ | rfl
    · exact hu
    all_goals simp

end

/-- C86: a list of networks and ranges is read without an error by a parser which does not merge, and an address matches the list exactly when
it is in one of the networks or ranges. -/
theorem C86_list (env : ParseEnv) (p : Parser) (inp : Str) (h : ReadsAccess p) (hmerge : p.config.sort &&& SORT_MERGE = 0)
    (hn : ∀ e ∈ fields (separates p) inp, e ≠ [] → ∃ t S, Trims e t ∧ Listed t S) :
    ∃ l, (Parser.parse env inp p).2 = .ok l ∧ (Parser.parse env inp p).1.getErrorCount = p.getErrorCount
      ∧ (Parser.parse env inp p).1.errorMessages = p.errorMessages
      ∧ ∀ a : Addr, ∃ b, addressMatchRanges l a = .ok b
        ∧ (b = true ↔ ∃ e ∈ fields (separates p) inp, ∃ t S, Trims e t ∧ Listed t S ∧ S (ip a.getIpv6.addr)) := by
  have hcfg := unsortedOf_config p
  have hq : ReadsAccess (unsortedOf p) := {
    list := by rw [ListMode, hcfg]; exact h.list
    comments := by rw [NoComments, hcfg]; exact h.comments
    mask := by rw [hcfg]; exact h.mask
    lookup := by rw [hcfg]; exact h.lookup
    range := by rw [hcfg]; exact h.range
    protocol := by rw [hcfg]; exact h.protocol
    port := by rw [hcfg]; exact h.port
    defaultPort := by rw [hcfg]; exact h.defaultPort
    mask4 := by rw [hcfg]; exact h.mask4
    mask6 := by rw [hcfg]; exact h.mask6 }
  have hs : Unsorted (unsortedOf p) := by
    rw [Unsorted, hcfg]
    show (p.config.sort &&& SORT_NO_EMPTY) &&& 0x0F = 0
    rw [BitVec.and_assoc]
    simp [SORT_NO_EMPTY]
  have hsep : separates (unsortedOf p) = separates p := by
    funext x
    rw [separates, separates, hcfg]
  have hes : ∀ e ∈ (fields (separates p) inp).filter (· ≠ []), OneEntry (unsortedOf p) e ∧ ∃ t S, Trims e t ∧ Listed t S := by
    intro e he
    rw [List.mem_filter] at he
    have : e ≠ [] := by simpa using he.2
    exact ⟨⟨this, by rw [hsep]; exact fields_mem _ _ _ he.1, hq.comments⟩, hn e he.1 this⟩
  obtain ⟨l, h1, h2⟩ := parseEach_listed (env := env) hq hs _ hes
  have h4 : Parser.parse env inp (unsortedOf p) = (unsortedOf p, .ok l) := by
    rw [C41_entrywise env inp (unsortedOf p) hq.list hq.comments hs, hsep]
    exact h1
  obtain ⟨e1, e2, _⟩ := parse_sort env inp p
  rw [h4] at e1 e2
  obtain ⟨l', h5, h6, _⟩ := C43_sort_permutes env inp p hmerge l (by rw [h4])
  refine ⟨l', h5, e2.trans (unsortedOf_error p).2, e1.trans (unsortedOf_error p).1, fun a => ?_⟩
  obtain ⟨b, j1, j2⟩ := C35_any_range l' a
  refine ⟨b, j1, j2.trans ?_⟩
  have h7 : (∃ r ∈ l', r.matchAddr a = .ok true) ↔ ∃ r ∈ l, r.matchAddr a = .ok true :=
    ⟨fun ⟨r, hr, hm⟩ => ⟨r, h6.mem_iff.1 hr, hm⟩, fun ⟨r, hr, hm⟩ => ⟨r, h6.mem_iff.2 hr, hm⟩⟩
  rw [h7, h2 a]
  constructor
  · rintro ⟨e, he, g⟩
    exact ⟨e, (List.mem_filter.1 he).1, g⟩
  · rintro ⟨e, he, t, S, g1, g2, g3⟩
    have hne : e ≠ [] := by
      rintro rfl
      obtain ⟨x, y, g4, _⟩ := g1
      have : t = [] := by
        have := congrArg List.length g4
        simp only [List.length_append, List.length_nil] at this
        exact List.length_eq_zero_iff.1 (by omega)
      exact listed_ne g2 this
    exact ⟨e, List.mem_filter.2 ⟨he, by simpa using hne⟩, t, S, g1, g2, g3⟩

/-! ### Only one meaning -/

/-- The characters of the entries. -/
def listedChars : Str := "-[]/".toList ++ Parser.textChars

theorem digit_listed {c : Char} (h : c.isDigit = true) : c ∈ listedChars := by
  have h1 : 48 ≤ c.toNat ∧ c.toNat ≤ 57 := by
    unfold Char.isDigit at h
    rw [Bool.and_eq_true, decide_eq_true_eq, decide_eq_true_eq] at h
    exact ⟨UInt32.le_iff_toNat_le.1 h.1, UInt32.le_iff_toNat_le.1 h.2⟩
  have h2 := (by decide : ∀ n ∈ List.range' 48 10, Char.ofNat n ∈ listedChars) c.toNat (List.mem_range'_1.2 ⟨h1.1, by omega⟩)
  rwa [Char.ofNat_toNat] at h2

theorem listed_chars {t : Str} {S : Nat → Prop} (h : Listed t S) : ∀ c ∈ t, c ∈ listedChars := by
  have ha : ∀ {u : Str} {n : Nat}, AddressOf u n → ∀ c ∈ u, c ∈ listedChars := fun h c hc =>
    List.mem_append_right _ (Parser.address_chars h c hc)
  have h1 : '/' ∈ listedChars := by decide
  have h2 : '[' ∈ listedChars := by decide
  have h3 : ']' ∈ listedChars := by decide
  intro c hc
  cases h with
  | network h =>
    cases h with
    | v4 hv hs hd hm =>
      rw [List.mem_append, List.mem_cons] at hc
      exact hc.elim (ha (.inl ⟨_, hv, rfl, rfl⟩) c) (·.elim (fun h => h ▸ h1) fun h => digit_listed (hd c h))
    | v6 hn hu hs hd hm =>
      rw [List.mem_append, List.mem_cons] at hc
      exact hc.elim (ha (.inr ⟨hn, hu⟩) c) (·.elim (fun h => h ▸ h1) fun h => digit_listed (hd c h))
    | bracket hn hu hs hd hm =>
      rw [List.mem_append, List.mem_append, List.mem_singleton, List.mem_cons, List.mem_cons] at hc
      exact hc.elim (·.elim (·.elim (fun h => h ▸ h2) (ha (.inr ⟨hn, hu⟩) c)) fun h => h ▸ h3)
        (·.elim (fun h => h ▸ h1) fun h => digit_listed (hd c h))
    | hostBracket hn hu =>
      rw [List.mem_append, List.mem_cons, List.mem_singleton] at hc
      exact hc.elim (·.elim (fun h => h ▸ h2) (ha (.inr ⟨hn, hu⟩) c)) fun h => h ▸ h3
    | host h => exact ha h c hc
  | @range u _ _ he hr =>
    have hu : ∀ c ∈ u, c ∈ listedChars := fun c hc =>
      (by decide : ∀ c ∈ '-' :: Parser.textChars, c ∈ listedChars) c (Parser.bounds_chars hr c hc)
    cases he with
    | bare4 _ => exact hu c hc
    | port4 _ _ hp => exact hp.elim
    | bare6 _ => exact hu c hc
    | bracket =>
      rw [List.mem_append, List.mem_cons, List.mem_singleton] at hc
      exact hc.elim (·.elim (fun h => h ▸ h2) (hu c)) fun h => h ▸ h3
    | port6 hp => exact hp.elim

theorem listed_trims {t : Str} {S : Nat → Prop} (h : Listed t S) : Trims t t := by
  have : ∀ c ∈ t, c ∉ " \t\n\x0b\x0c\r".toList := fun c hc =>
    (by decide : ∀ c ∈ listedChars, c ∉ " \t\n\x0b\x0c\r".toList) c (listed_chars h c hc)
  exact trims_self (fun c hc => this c (List.mem_of_head? hc)) (fun c hc => this c (List.mem_of_getLast? hc))

theorem listed_separates {t : Str} {S : Nat → Prop} (h : Listed t S) (p : Parser) : ∀ x ∈ t, separates p x = false := by
  intro x hx
  have h3 : ∀ c ∈ [',', ' ', '\n'], x ≠ c := fun c hc e =>
    absurd (e ▸ listed_chars h x hx) ((by decide : ∀ c ∈ [',', ' ', '\n'], c ∉ listedChars) c hc)
  rw [separates, beq_eq_false_iff_ne.2 (h3 ',' (by decide)), beq_eq_false_iff_ne.2 (h3 ' ' (by decide)), beq_eq_false_iff_ne.2 (h3 '\n' (by decide))]
  simp

/-- A parser of lists of networks and ranges, in the order in which they are written. -/
def plainParser : Parser := ParserOp.runAll [(sampleEnv, .setAllow 6 true), (sampleEnv, .setSortOrder 0)] accessParser

theorem plainParser_reads : ReadsAccess plainParser where
  list := by unfold ListMode; decide
  comments := ⟨by decide, by decide⟩
  mask := by decide
  lookup := by decide
  range := by decide
  protocol := by decide
  port := by decide
  defaultPort := by decide
  mask4 := by decide
  mask6 := by decide

/-- C86: an entry has only one meaning. -/
theorem C86_unambiguous (t : Str) (S S' : Nat → Prop) (h : Listed t S) (h' : Listed t S') (x : Nat) (hx : x < 2 ^ 128) : S x ↔ S' x := by
  have hone : OneEntry plainParser t := ⟨listed_ne h, listed_separates h _, plainParser_reads.comments⟩
  have hs : Unsorted plainParser := by unfold Unsorted; decide
  obtain ⟨l, h1, h2⟩ := parse_listed (env := sampleEnv) plainParser_reads hs hone (listed_trims h) h
  obtain ⟨l', h3, h4⟩ := parse_listed (env := sampleEnv) plainParser_reads hs hone (listed_trims h) h'
  rw [h1] at h3
  injection h3 with _ h3
  injection h3 with h3
  subst h3
  have hip : ip (Addr.default.ipFromUint128 (BitVec.ofNat 128 x)).getIpv6.addr = x := by
    show ip (Addr.default.ipFromUint128 (BitVec.ofNat 128 x)).bytes = x
    rw [ip_fromUint, BitVec.toNat_ofNat, Nat.mod_eq_of_lt hx]
  have := (h2 (Addr.default.ipFromUint128 (BitVec.ofNat 128 x))).symm.trans (h4 _)
  rw [hip] at this
  exact this

/-! ### Examples -/

/-- A parser of one range: no lookup. -/
def rangeParser : Parser := ParserOp.runAll [(sampleEnv, .setAllow 6 true)] sampleParser

/-- A parser of lists of networks and ranges, which sorts and leaves out ranges without addresses. -/
def blockParser : Parser := ParserOp.runAll [(sampleEnv, .setAllow 6 true), (sampleEnv, .setSortOrder (SORT_FULL ||| SORT_NO_EMPTY))] accessParser

theorem rangeParser_reads (inp : Str) (h : inp ≠ []) : ReadsRange rangeParser inp where
  lookup := by decide
  mask := by decide
  range := by decide
  protocol := by decide
  one := ⟨h, (fun x _ => by
    rw [separates, show rangeParser.config.flags .multiAddressesCommas = false by decide,
      show rangeParser.config.flags .multiAddressesSpaces = false by decide,
      show rangeParser.config.flags .multiAddressesNewlines = false by decide]
    simp), ⟨by decide, by decide⟩⟩
  sort := by unfold Unsorted; decide

theorem blockParser_reads : ReadsAccess blockParser where
  list := by unfold ListMode; decide
  comments := ⟨by decide, by decide⟩
  mask := by decide
  lookup := by decide
  range := by decide
  protocol := by decide
  port := by decide
  defaultPort := by decide
  mask4 := by decide
  mask6 := by decide

theorem sampleText {v : Nat} {t : Str} (hv : v < 2 ^ 32) (h : t = dotted v) : AddressOf t (0xFFFF00000000 + v) := .inl ⟨v, hv, h, rfl⟩

/-- C86_accepted on a range followed by a port, with white space around it. -/
example : ∃ r, Parser.parse sampleEnv " 10.0.0.5-10.0.1.9:80 ".toList rangeParser = (rangeParser, .ok [r])
    ∧ BoundIs r.hasFrom r.lo 80 true (some 0xFFFF0A000005) ∧ BoundIs r.hasTo r.hi 80 true (some 0xFFFF0A000109) := by
  refine (C86_accepted sampleEnv rangeParser " 10.0.0.5-10.0.1.9:80 ".toList "10.0.0.5-10.0.1.9:80".toList "10.0.0.5-10.0.1.9".toList "80".toList
    (some 0xFFFF0A000005) (some 0xFFFF0A000109) 80 (rangeParser_reads _ (by decide)) ⟨" ".toList, " ".toList, rfl, by decide, by decide, by decide, by decide⟩
    (.port4 (u := "10.0.0.5-10.0.1.9".toList) (q := "80".toList) (by decide) (by decide) (.inl (by decide)))
    (.both (u := "10.0.0.5".toList) (v := "10.0.1.9".toList) (sampleText (v := 0x0A000005) (by decide) (by decide)) (sampleText (v := 0x0A000109) (by decide) (by decide)))
    ⟨by decide, by rw [if_pos (by decide)]; exact ⟨.inl (by decide), by decide⟩⟩).1 (fun h => h.1 (by decide))

/-- C86_refused: brackets go around the whole of a range, not around each of its addresses. -/
example : (Parser.parse sampleEnv "[::1]-[::5]".toList rangeParser).1.getErrorCount = 1
    ∧ (Parser.parse sampleEnv "[::1-::5]".toList rangeParser).1.getErrorCount = 0 := by decide +kernel

/-- C86_list on a list with a network, an empty range, and two ranges. -/
example : ∃ l, (Parser.parse sampleEnv "10.0.0.0/8,5.0.0.0-4.0.0.0, [::1-1.2.3.4],9.9.9.9-".toList blockParser).2 = .ok l
    ∧ addressMatchRanges l (sampleV4 1 2 3 3) = .ok true := by
  have h1 : Listed "10.0.0.0/8".toList (InNetwork · (0xFFFF00000000 + 0x0A000000) (96 + 8)) :=
    .network (.v4 (v := 0x0A000000) (s := "8".toList) (by decide) (by decide) (by decide) (by decide))
  have h2 : Listed "5.0.0.0-4.0.0.0".toList (InBounds · (some 0xFFFF05000000) (some 0xFFFF04000000)) :=
    .range (.bare4 (by decide)) (.both (u := "5.0.0.0".toList) (v := "4.0.0.0".toList) (sampleText (v := 0x05000000) (by decide) (by decide))
      (sampleText (v := 0x04000000) (by decide) (by decide)))
  have h3 : Listed "[::1-1.2.3.4]".toList (InBounds · (some 1) (some 0xFFFF01020304)) :=
    .range (u := "::1-1.2.3.4".toList) (Entry.bracket (u := "::1-1.2.3.4".toList)) (.both (u := "::1".toList) (v := "1.2.3.4".toList)
      (.inr ⟨by decide, .zip (p := []) (ps := []) (z := 7) (q := "1".toList) (qs := [1]) (.inl ⟨rfl, rfl⟩)
        (.inr (.one ⟨HexNum.snoc (c := '1') (d := 1) .nil (.inl (by decide)), by decide, by decide⟩)) (by decide) (by decide)⟩)
      (sampleText (v := 0x01020304) (by decide) (by decide)))
  have h4 : Listed "9.9.9.9-".toList (InBounds · (some 0xFFFF09090909) none) :=
    .range (.bare4 (by decide)) (.start (u := "9.9.9.9".toList) (sampleText (v := 0x09090909) (by decide) (by decide)))
  have hf : fields (separates blockParser) "10.0.0.0/8,5.0.0.0-4.0.0.0, [::1-1.2.3.4],9.9.9.9-".toList
      = ["10.0.0.0/8".toList, "5.0.0.0-4.0.0.0".toList, " [::1-1.2.3.4]".toList, "9.9.9.9-".toList] := by
    decide +kernel
  have ht : Trims " [::1-1.2.3.4]".toList "[::1-1.2.3.4]".toList := ⟨" ".toList, [], rfl, by decide, by decide, by decide, by decide⟩
  obtain ⟨l, j1, _, _, j2⟩ := C86_list sampleEnv blockParser _ blockParser_reads (by decide) (by
    rw [hf]
    intro e he _
    simp only [List.mem_cons, List.not_mem_nil, or_false] at he
    rcases he with rfl | rfl | rfl | rfl
    · exact ⟨_, _, trims_self (by decide) (by decide), h1⟩
    · exact ⟨_, _, trims_self (by decide) (by decide), h2⟩
    · exact ⟨_, _, ht, h3⟩
    · exact ⟨_, _, trims_self (by decide) (by decide), h4⟩)
  obtain ⟨b, j3, j4⟩ := j2 (sampleV4 1 2 3 3)
  rw [j4.2 ⟨" [::1-1.2.3.4]".toList, by rw [hf]; simp, _, _, ht, h3, by unfold InBounds; decide +kernel⟩] at j3
  exact ⟨l, j1, j3⟩

end Verif
