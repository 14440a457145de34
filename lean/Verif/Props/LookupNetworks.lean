import Verif.Props.LookupAccess
import Verif.Props.ValidatorLookupMask

/-! C150: access lists of hosts and of the networks around hosts (addr_parser.cpp:1037-1287, 1780-1885, 2039-2270, addr_range.cpp:1039-1051). An
address is let in by such a list exactly if one of its entries lets it in. -/

namespace Verif

open Spec

/-- A parser of lists with lookups and masks, which are numbers of bits, without ranges, comments and default masks; it may sort. -/
structure NetworkNames (p : Parser) (inp : Str) : Prop where
  lookup : p.config.flags .addressLookup = true
  mask : p.config.flags .mask = true
  number : p.config.flags .addressMask = false
  range : p.config.flags .addressRange = false ∨ '-' ∉ inp
  list : ListMode p
  comments : NoComments p
  mask4 : p.config.defaultMask4 = []
  mask6 : p.config.defaultMask6 = []

/-- The number of bits, of 128, which the mask `m` after the entry `e` makes count in the address of an answer. -/
def NetworkBits (ports : Prop) (e m : Str) (x : AddrInfo) (k : Nat) : Prop :=
  (m = [] ∧ k = 128) ∨ (m ≠ [] ∧ PlainText ports e ∧ isV4 (answerNumber x) ∧ k = 96 + Nat.ofDigitChars 10 m 0)
    ∨ (m ≠ [] ∧ ¬ (PlainText ports e ∧ isV4 (answerNumber x)) ∧ k = Nat.ofDigitChars 10 m 0)

/-- The item gives a network, with its number and its bits: the host is known, its answers are all usable, its mask fits all of them, and
the number is the address of one of them. -/
def GivesNetwork (env : ParseEnv) (p : Parser) (i : Str) (n k : Nat) : Prop :=
  ∃ t e m u q l, Trims i t ∧ CutMask t e m ∧ Asks p e u q ∧ (p.config.flags .requiredPort = false ∨ q ≠ []) ∧ answerTo env p u q = .list l
    ∧ (∀ x ∈ l, usable x = true ∧ FitsMask (PortsAllowed p) e m x)
    ∧ ∃ x ∈ l, NetworkBits (PortsAllowed p) e m x k ∧ answerNumber x = n

/-! ### Lemmas -/

section
variable {env : ParseEnv} {p : Parser}

theorem writtenAs_plain {e : Str} : WrittenAsIpv4 p e ↔ PlainText (PortsAllowed p) e := by
  unfold WrittenAsIpv4 PlainText PortsAllowed
  rw [or_assoc]

theorem fits_bits {e m : Str} (hm0 : m ≠ []) (hm : ∀ c ∈ m, c.isDigit = true) (x : AddrInfo) :
    FitsMask (PortsAllowed p) e m x ↔ Nat.ofDigitChars 10 m 0 ≤ answerBits p e x := by
  unfold FitsMask answerBits
  rw [← writtenAs_plain]
  constructor
  · rintro (h' | ⟨_, h1, h2⟩)
    · exact absurd h' hm0
    · split
      · rename_i h3
        exact h2 h3.1 h3.2
      · exact h1
  · intro hle
    refine .inr ⟨hm, ?_, fun h1 h2 => ?_⟩
    · split at hle <;> omega
    · rwa [if_pos ⟨h1, h2⟩] at hle

theorem networkBits_iff {e m : Str} (hm0 : m ≠ []) (x : AddrInfo) (k : Nat) :
    NetworkBits (PortsAllowed p) e m x k ↔ k = 128 - answerBits p e x + Nat.ofDigitChars 10 m 0 := by
  unfold NetworkBits answerBits
  rw [← writtenAs_plain]
  by_cases h : WrittenAsIpv4 p e ∧ isV4 (answerNumber x)
  · rw [if_pos h]
    constructor
    · rintro (⟨h', _⟩ | ⟨_, _, _, rfl⟩ | ⟨_, h', _⟩)
      · exact absurd h' hm0
      · rfl
      · exact absurd h h'
    · rintro rfl
      exact .inr (.inl ⟨hm0, h.1, h.2, rfl⟩)
  · rw [if_neg h]
    constructor
    · rintro (⟨h', _⟩ | ⟨_, h1, h2, _⟩ | ⟨_, _, rfl⟩)
      · exact absurd h' hm0
      · exact absurd ⟨h1, h2⟩ h
      · omega
    · rintro rfl
      exact .inr (.inr ⟨hm0, h, by omega⟩)

/-- The ranges are these networks, in some order. -/
def AreNetworks (rs : List Range) (N : Nat → Nat → Prop) : Prop :=
  (∀ r ∈ rs, ∃ n k, N n k ∧ IsNetwork r n k) ∧ ∀ n k, N n k → ∃ r ∈ rs, IsNetwork r n k

theorem areNetworks_none {N : Nat → Nat → Prop} (h : ∀ n k, ¬ N n k) : AreNetworks [] N :=
  ⟨(fun _ h => nomatch h), fun n k h' => absurd h' (h n k)⟩

theorem areNetworks_iff {rs : List Range} {N N' : Nat → Nat → Prop} (h : AreNetworks rs N) (hN : ∀ n k, N n k ↔ N' n k) : AreNetworks rs N' := by
  have : N = N' := funext fun n => funext fun k => propext (hN n k)
  rwa [← this]

/-- What an entry with a known host gives. -/
theorem known_networks {inp t e m u q : Str} {l : List AddrInfo} (h : LooksUpMask p inp) (ht : Trims inp t)
    (h4 : p.config.defaultMask4 = []) (h6 : p.config.defaultMask6 = []) (ham : p.config.flags .addressMask = false) (hnul : '\x00' ∉ inp)
    (hcut : CutMask t e m) (hn : ¬ LeftOut e) (ha : Asks p e u q)
    (hq : p.config.flags .requiredPort = false ∨ q ≠ []) (hl : answerTo env p u q = .list l) (hs : ∀ x ∈ l, SafeAnswer x) :
    ∃ p' rs, Parser.parse env inp p = (p', .ok rs) ∧ AreNetworks rs fun n k =>
      (∀ x ∈ l, usable x = true ∧ FitsMask (PortsAllowed p) e m x) ∧ ∃ x ∈ l, NetworkBits (PortsAllowed p) e m x k ∧ answerNumber x = n := by
  by_cases hm0 : m = []
  · subst hm0
    obtain ⟨hu, v6, h1⟩ := masked_entry (env := env) h ht hcut hn ha
    obtain ⟨errs, rs, g1, g2, g3⟩ := Parser.bound_list h.lookup hu hq v6 hl hs
    have h2 : Parser.parseAddress env e [] [] p = (Parser.emitAll errs p, .ok (Parser.asIpv4 p.config e, rs)) := by
      rw [h1, PM.bind_def, g1]
      rfl
    refine ⟨_, _, parse_looksUpMask h ht hcut h2 (maskLoop_none rs (Parser.emitAll errs p) h4 h6), ?_⟩
    have hbad : p.errorCount = (Parser.emitAll errs p).errorCount ↔ ∀ x ∈ l, usable x = true := by
      rw [← bad_usable, ← g2]
      simp only [Parser.emitAll]
      omega
    have hnet : ∀ x r, (r.hasFrom = true ∧ r.hasTo = false ∧ AddressOfAnswer u q x r.lo) → IsNetwork r (answerNumber x) 128 :=
      fun x r hx => ⟨hx.1, hx.2.1, Parser.number_of_holds hx.2.2.holds, by decide, hx.2.2.mask.trans (by decide)⟩
    by_cases hall : ∀ x ∈ l, usable x = true
    · rw [if_pos (hbad.2 hall)]
      constructor
      · intro r hr
        obtain ⟨x, hxl, hx'⟩ := each_right g3 r hr
        exact ⟨_, 128, ⟨fun x hx => ⟨hall x hx, .inl rfl⟩, x, (List.mem_filter.1 hxl).1, .inl ⟨rfl, rfl⟩, rfl⟩, hnet x r hx'⟩
      · rintro n k ⟨_, x, hx, hk, rfl⟩
        obtain ⟨r, hr, hx'⟩ := each_left g3 x (List.mem_filter.2 ⟨hx, hall x hx⟩)
        rcases hk with ⟨_, rfl⟩ | ⟨hk, _⟩ | ⟨hk, _⟩
        · exact ⟨r, hr, hnet x r hx'⟩
        · exact absurd rfl hk
        · exact absurd rfl hk
    · rw [if_neg fun h' => hall (hbad.1 h')]
      exact areNetworks_none fun _ _ ⟨h', _⟩ => hall fun x hx => (h' x hx).1
  · by_cases hm : ∀ c ∈ m, c.isDigit = true
    · obtain ⟨rs, c, ⟨p', h1, _⟩, h2, h3, h5⟩ := C131_networks env p inp t e m u q l h ht hcut hn ha hq hm0 hm hl hs
      refine ⟨p', rs, h1, ?_⟩
      have hbad : c = 0 ↔ ∀ x ∈ l, usable x = true ∧ FitsMask (PortsAllowed p) e m x := by
        rw [h2, tooShort_none]
        exact forall_congr' fun x => forall_congr' fun _ => and_congr_right fun _ => (fits_bits hm0 hm x).symm
      by_cases hc : c = 0
      · have hall := hbad.1 hc
        have g3 := h3 hc
        have hnet : ∀ x ∈ l, ∀ r, NetworkOf p e u q (Nat.ofDigitChars 10 m 0) x r →
            IsNetwork r (answerNumber x) (128 - answerBits p e x + Nat.ofDigitChars 10 m 0) := fun x hx r hr => by
          have hb := (fits_bits hm0 hm x).1 (hall x hx).2
          have hle : answerBits p e x ≤ 128 := by unfold answerBits; split <;> omega
          exact ⟨hr.hasFrom, hr.hasTo, Parser.number_of_holds hr.holds, by omega, hr.mask⟩
        constructor
        · intro r hr
          obtain ⟨x, hxl, hx'⟩ := each_right g3 r hr
          have hx := (List.mem_filter.1 hxl).1
          exact ⟨_, _, ⟨hall, x, hx, (networkBits_iff hm0 x _).2 rfl, rfl⟩, hnet x hx r hx'⟩
        · rintro n k ⟨_, x, hx, hk, rfl⟩
          obtain ⟨r, hr, hx'⟩ := each_left g3 x (List.mem_filter.2 ⟨hx, (hall x hx).1⟩)
          rw [networkBits_iff hm0] at hk
          exact ⟨r, hr, hk ▸ hnet x hx r hx'⟩
      · rw [h5 hc]
        exact areNetworks_none fun _ _ ⟨h', _⟩ => hc (hbad.2 h')
    · have hm' : ∃ c ∈ m, c.isDigit = false := by
        refine Classical.byContradiction fun h' => hm fun c hc => ?_
        cases hd : c.isDigit with
        | true => rfl
        | false => exact absurd ⟨c, hc, hd⟩ h'
      obtain ⟨p', h1, _⟩ := C131_not_number env p inp t e m u q l h ht hcut hn ha hq ham
        (fun h' => hnul (trims_mem ht _ ((cutMask_mem hcut).2 _ h'))) hm' hl hs
      refine ⟨p', [], h1, areNetworks_none ?_⟩
      rintro _ _ ⟨h', x, hx, _⟩
      rcases (h' x hx).2 with h' | ⟨h', _⟩
      · exact absurd h' hm0
      · exact absurd h' hm

theorem cut_exists (t : Str) : ∃ e m, CutMask t e m := by
  by_cases hsl : '/' ∈ t
  · obtain ⟨a, b, rfl, hb⟩ := List.eq_append_cons_of_mem hsl
    exact ⟨a, b, hb, .inr rfl⟩
  · exact ⟨t, [], hsl, .inl ⟨rfl, rfl⟩⟩

/-- What an entry gives. -/
theorem entry_networks {inp : Str} (h : LooksUpMask p inp) (h4 : p.config.defaultMask4 = []) (h6 : p.config.defaultMask6 = [])
    (ham : p.config.flags .addressMask = false) (hnul : '\x00' ∉ inp) (hn : ∀ t e m, Trims inp t → CutMask t e m → ¬ LeftOut e)
    (hs : SafeAnswers env) :
    ∃ p' rs, Parser.parse env inp p = (p', .ok rs) ∧ AreNetworks rs (GivesNetwork env p inp) := by
  obtain ⟨t, ht⟩ : ∃ t, Trims inp t := ⟨_, trims_trim inp⟩
  obtain ⟨e, m, hcut⟩ := cut_exists t
  have hne := hn t e m ht hcut
  have same : ∀ {t' e' m'}, Trims inp t' → CutMask t' e' m' → t' = t ∧ e' = e ∧ m' = m := by
    intro t' e' m' h1 h2
    obtain rfl : t' = t := (trims_eq h1).symm.trans (trims_eq ht)
    have := (cutMask_split h2).symm.trans (cutMask_split hcut)
    exact ⟨rfl, congrArg Prod.fst this, congrArg Prod.snd this⟩
  by_cases hno : ∃ u q, Asks p e u q ∧ (p.config.flags .requiredPort = false ∨ q ≠ [])
  · obtain ⟨u, q, ha, hq⟩ := hno
    have known : ∀ {n k} p' rs, Parser.parse env inp p = (p', .ok rs) → GivesNetwork env p inp n k → ∃ r ∈ rs, IsNetwork r n k := by
      rintro n k p' rs hp ⟨t', e', m', u', q', l', k1, k2, k3, k4, k5, k6, k7⟩
      obtain ⟨rfl, rfl, rfl⟩ := same k1 k2
      obtain ⟨p1, rs1, g1, g2⟩ := known_networks h ht h4 h6 ham hnul hcut hne k3 k4 k5 (answer_safe hs k5)
      rw [hp] at g1
      cases g1
      exact g2.2 n k ⟨k6, k7⟩
    cases hl : answerTo env p u q with
    | list l =>
      obtain ⟨p', rs, g1, g2⟩ := known_networks h ht h4 h6 ham hnul hcut hne ha hq hl (answer_safe hs hl)
      refine ⟨p', rs, g1, fun r hr => ?_, fun n k h' => known p' rs g1 h'⟩
      obtain ⟨n, k, ⟨k1, k2⟩, k3⟩ := g2.1 r hr
      exact ⟨n, k, ⟨t, e, m, u, q, l, ht, hcut, ha, hq, hl, k1, k2⟩, k3⟩
    | error r c =>
      obtain ⟨p', g1, _⟩ := C131_unknown env p inp t e m u q r c h ht hcut hne ha hq hl
      exact ⟨p', [], g1, (fun _ h => nomatch h), fun n k h' => known p' [] g1 h'⟩
  · obtain ⟨p', g1, _⟩ := masked_refused (env := env) h ht hcut hne hno
    refine ⟨p', [], g1, areNetworks_none ?_⟩
    rintro _ _ ⟨t', e', m', u', q', l', k1, k2, k3, k4, _⟩
    obtain ⟨rfl, rfl, rfl⟩ := same k1 k2
    exact absurd ⟨u', q', k3, k4⟩ hno

/-- When each entry is read alone, so is the list, and the ranges are those of the entries. -/
theorem parseEach_all {p : Parser} : ∀ (es : List Str) (q : Parser), q.config = p.config →
    (∀ e ∈ es, ∃ p' rs, Parser.parse env e p = (p', .ok rs)) →
    ∃ q' rs, parseEach env es q = (q', .ok rs) ∧ ∀ r, r ∈ rs ↔ ∃ e ∈ es, ∃ p' re, Parser.parse env e p = (p', .ok re) ∧ r ∈ re
  | [], q, _, _ => ⟨q, [], rfl, fun r => ⟨(fun h => nomatch h), (fun ⟨_, h, _⟩ => nomatch h)⟩⟩
  | e :: es, q, hq, h => by
    obtain ⟨errs, x, hlog⟩ := Parser.logging_parse env p.config e
    obtain ⟨p1, re, he⟩ := h e List.mem_cons_self
    have h0 := hlog p rfl
    rw [he] at h0
    obtain rfl : .ok re = x := congrArg Prod.snd h0
    obtain ⟨q', rs, g1, g2⟩ := parseEach_all es (Parser.emitAll errs q) hq fun e' he' => h e' (List.mem_cons_of_mem _ he')
    refine ⟨q', re ++ rs, ?_, fun r => ?_⟩
    · rw [parseEach, hlog q hq]
      dsimp only
      rw [g1]
    · rw [List.mem_append, g2]
      constructor
      · rintro (hr | ⟨e', h1, h2⟩)
        · exact ⟨e, List.mem_cons_self, p1, re, he, hr⟩
        · exact ⟨e', List.mem_cons_of_mem _ h1, h2⟩
      · rintro ⟨e', h1, p', re', h2, h3⟩
        rcases List.mem_cons.1 h1 with rfl | h1
        · rw [he] at h2
          cases h2
          exact .inl h3
        · exact .inr ⟨e', h1, p', re', h2, h3⟩

theorem gives_unsorted {i : Str} {n k : Nat} : GivesNetwork env (unsortedOf p) i n k ↔ GivesNetwork env p i n k := by
  have hc := unsortedOf_config p
  have e1 : (unsortedOf p).config.flags = p.config.flags := by rw [hc]
  have e2 : (unsortedOf p).config.defaultAddress4 = p.config.defaultAddress4 := by rw [hc]
  have e3 : (unsortedOf p).config.defaultAddress6 = p.config.defaultAddress6 := by rw [hc]
  have e4 : PortsAllowed (unsortedOf p) = PortsAllowed p := propext ports_unsorted
  unfold GivesNetwork
  rw [e1, e4]
  simp only [answer_unsorted]
  constructor
  · rintro ⟨t, e, m, u, q, l, h1, h2, h3, h4⟩
    exact ⟨t, e, m, u, q, l, h1, h2, asks_sameConfig e1.symm e2.symm e3.symm h3, h4⟩
  · rintro ⟨t, e, m, u, q, l, h1, h2, h3, h4⟩
    exact ⟨t, e, m, u, q, l, h1, h2, asks_sameConfig e1 e2 e3 h3, h4⟩

theorem networks_list {N : Nat → Nat → Prop} : ∀ rs : List Range, (∀ r ∈ rs, ∃ n k, N n k ∧ IsNetwork r n k) →
    ∃ Q : List (Nat × Nat), List.Forall₂ (fun r q => IsNetwork r q.1 q.2) rs Q ∧ ∀ q ∈ Q, N q.1 q.2
  | [], _ => ⟨[], .nil, (fun _ h => nomatch h)⟩
  | r :: rs, h => by
    obtain ⟨n, k, h1, h2⟩ := h r List.mem_cons_self
    obtain ⟨Q, h3, h4⟩ := networks_list rs fun r' hr => h r' (List.mem_cons_of_mem _ hr)
    refine ⟨(n, k) :: Q, .cons h2 h3, fun q hq => ?_⟩
    rcases List.mem_cons.1 hq with rfl | hq
    · exact h1
    · exact h4 q hq

/-- The list before it is sorted. -/
theorem networkNames_read {inp : Str} (h : NetworkNames p inp) (hs : SafeAnswers env) (hnul : '\x00' ∉ inp)
    (hn : ∀ i ∈ items p inp, ∀ t e m, Trims i t → CutMask t e m → ¬ LeftOut e) :
    ∃ p' rs Q, Parser.parse env inp (unsortedOf p) = (p', .ok rs) ∧ List.Forall₂ OneNetwork rs Q
      ∧ ∀ n k, (n, k) ∈ Q ↔ ∃ i ∈ items p inp, GivesNetwork env p i n k := by
  have hc := unsortedOf_config p
  have hlist : ListMode (unsortedOf p) := by rw [ListMode, hc]; exact h.list
  have hcom : NoComments (unsortedOf p) := by rw [NoComments, hc]; exact h.comments
  have hsort := unsorted_unsortedOf p
  have one : ∀ i ∈ items p inp, ∃ p' rs, Parser.parse env i (unsortedOf p) = (p', .ok rs) ∧ AreNetworks rs (GivesNetwork env p i) := by
    intro i hi
    have hi' := hi
    rw [← items_unsorted, items, List.mem_filter] at hi'
    have hlk : LooksUpMask (unsortedOf p) i := ⟨by rw [hc]; exact h.lookup, by rw [hc]; exact h.mask,
      by rw [hc]; exact h.range.imp_right fun h' hx => h' (fields_sub _ _ _ hi'.1 _ hx),
      ⟨by simpa using hi'.2, fields_mem _ _ _ hi'.1, hcom⟩, hsort⟩
    obtain ⟨p', rs, g1, g2⟩ := entry_networks hlk (by rw [hc]; exact h.mask4) (by rw [hc]; exact h.mask6) (by rw [hc]; exact h.number)
      (items_nul hnul hi) (hn i hi) hs
    exact ⟨p', rs, g1, areNetworks_iff g2 fun _ _ => gives_unsorted⟩
  obtain ⟨q', rs, g1, g2⟩ := parseEach_all (env := env) (p := unsortedOf p) (items p inp) (unsortedOf p) rfl fun i hi => by
    obtain ⟨p', rs, g, _⟩ := one i hi
    exact ⟨p', rs, g⟩
  have g3 : Parser.parse env inp (unsortedOf p) = (q', .ok rs) := by
    rw [C41_entrywise env inp _ hlist hcom hsort, ← g1, ← items_unsorted]
    rfl
  obtain ⟨Q, g4, g5⟩ := networks_list (N := fun n k => ∃ i ∈ items p inp, GivesNetwork env p i n k) rs fun r hr => by
    obtain ⟨i, hi, p', re, k1, k2⟩ := (g2 r).1 hr
    obtain ⟨p1, re', k3, k4⟩ := one i hi
    rw [k1] at k3
    cases k3
    obtain ⟨n, k, j1, j2⟩ := k4.1 r k2
    exact ⟨n, k, ⟨i, hi, j1⟩, j2⟩
  have g6 := (Parser.hiWhole_parseUnsorted (env := env) (c := (unsortedOf p).config) inp (unsortedOf p) rfl).2 rs (by
    rw [← parse_unsortedOf, g3])
  refine ⟨q', rs, Q, g3, oneNetwork_of g4 g6, fun n k => ⟨g5 (n, k), ?_⟩⟩
  rintro ⟨i, hi, hg⟩
  obtain ⟨p1, re, k3, k4⟩ := one i hi
  obtain ⟨r, hr, hx⟩ := k4.2 n k hg
  obtain ⟨q, hq, hx'⟩ := (forall₂_mem g4).1 r ((g2 r).2 ⟨i, hi, p1, re, k3, hr⟩)
  have e1 : n = q.1 := hx.2.2.1.symm.trans hx'.2.2.1
  have e2 : k = q.2 := prefixMask_inj hx.2.2.2.1 hx'.2.2.2.1 (hx.2.2.2.2.symm.trans hx'.2.2.2.2)
  rw [e1, e2]
  exact hq

end

/-! ### C150 -/

/-- C150, the full claim: a list of hosts and networks around hosts, in which no address is left out, lets in exactly the addresses in the
networks of its entries, in whatever way it is sorted. It fails for parsers which merge. -/
def C150_claim : Prop :=
  ∀ (env : ParseEnv) (p : Parser) (inp : Str), NetworkNames p inp → SafeAnswers env → '\x00' ∉ inp →
    (∀ i ∈ items p inp, ∀ t e m, Trims i t → CutMask t e m → ¬ LeftOut e) →
    ∃ l, (Parser.parse env inp p).2 = .ok l
      ∧ ∀ a : Addr, ∃ b, addressMatchRanges l a = .ok b
        ∧ (b = true ↔ ∃ i ∈ items p inp, ∃ n k, GivesNetwork env p i n k ∧ InNetwork (ip a.getIpv6.addr) n k)

/-- C150 for parsers which do not merge. -/
theorem C150_matches_partial (env : ParseEnv) (p : Parser) (inp : Str) (h : NetworkNames p inp) (hm : p.config.sort &&& SORT_MERGE = 0)
    (hs : SafeAnswers env) (hnul : '\x00' ∉ inp) (hn : ∀ i ∈ items p inp, ∀ t e m, Trims i t → CutMask t e m → ¬ LeftOut e) :
    ∃ l, (Parser.parse env inp p).2 = .ok l
      ∧ ∀ a : Addr, ∃ b, addressMatchRanges l a = .ok b
        ∧ (b = true ↔ ∃ i ∈ items p inp, ∃ n k, GivesNetwork env p i n k ∧ InNetwork (ip a.getIpv6.addr) n k) := by
  obtain ⟨p', rs, Q, h1, h2, h3⟩ := networkNames_read h hs hnul hn
  obtain ⟨l, h5, h6, _⟩ := C43_sort_permutes env inp p hm rs (by rw [h1])
  refine ⟨l, h5, fun a => ?_⟩
  obtain ⟨b, j1, j2⟩ := C35_any_range l a
  refine ⟨b, j1, j2.trans ?_⟩
  constructor
  · rintro ⟨r, hr, hx⟩
    obtain ⟨q, hq, hn⟩ := (forall₂_mem h2).1 r (h6.mem_iff.1 hr)
    obtain ⟨i, hi, hg⟩ := (h3 q.1 q.2).1 hq
    exact ⟨i, hi, q.1, q.2, hg, (network_match hn.1 a).1 hx⟩
  · rintro ⟨i, hi, n, k, hg, hx⟩
    obtain ⟨r, hr, hn⟩ := (forall₂_mem h2).2 (n, k) ((h3 n k).2 ⟨i, hi, hg⟩)
    exact ⟨r, h6.mem_iff.2 hr, (network_match hn.1 a).2 hx⟩

/-- C150 for parsers which merge: `Q` are the networks of the entries. What is left of them, and when they cannot be merged, is as for
networks written with numbers. -/
theorem C150_merged (env : ParseEnv) (p : Parser) (inp : Str) (h : NetworkNames p inp) (hm : p.config.sort &&& SORT_MERGE ≠ 0)
    (hs : SafeAnswers env) (hnul : '\x00' ∉ inp) (hn : ∀ i ∈ items p inp, ∀ t e m, Trims i t → CutMask t e m → ¬ LeftOut e) :
    ∃ Q : List (Nat × Nat), (∀ n k, (n, k) ∈ Q ↔ ∃ i ∈ items p inp, GivesNetwork env p i n k)
      ∧ ((Parser.parse env inp p).2 = .throw .outOfRange ↔ Spec.Clash Q)
      ∧ (¬ Spec.Clash Q → ∃ l, (Parser.parse env inp p).2 = .ok l
          ∧ ∀ a : Addr, ∃ b, addressMatchRanges l a = .ok b ∧ (b = true ↔ LeftOf Q (ip a.getIpv6.addr))) := by
  obtain ⟨p', rs, Q, h1, h2, h3⟩ := networkNames_read h hs hnul hn
  obtain ⟨_, _, _, _, e5⟩ := parse_sort env inp p
  rw [h1] at e5
  refine ⟨Q, h3, ?_⟩
  rw [(e5 rs rfl).2]
  rcases sortResult_networks p.config.sort hm h2 with ⟨k1, k2⟩ | ⟨l, k1, k2, k3⟩
  · exact ⟨⟨fun _ => k2, fun _ => k1⟩, fun h' => absurd k2 h'⟩
  · rw [k1]
    refine ⟨⟨(fun h' => nomatch h'), fun h' => absurd h' k2⟩, fun _ => ⟨l, rfl, fun a => ?_⟩⟩
    obtain ⟨b, j1, j2⟩ := C35_any_range l a
    exact ⟨b, j1, j2.trans (k3 a)⟩

/-- C150 for parsers which merge, when no two hosts have addresses next to each other. -/
theorem C150_apart (env : ParseEnv) (p : Parser) (inp : Str) (h : NetworkNames p inp) (hs : SafeAnswers env) (hnul : '\x00' ∉ inp)
    (hn : ∀ i ∈ items p inp, ∀ t e m, Trims i t → CutMask t e m → ¬ LeftOut e)
    (ha : ∀ i ∈ items p inp, ∀ i' ∈ items p inp, ∀ n k n' k', GivesNetwork env p i n k → GivesNetwork env p i' n' k' → n + 1 ≠ n')
    (l : List Range) (hl : (Parser.parse env inp p).2 = .ok l) (a : Addr) :
    ∃ b, addressMatchRanges l a = .ok b
      ∧ (b = true ↔ ∃ i ∈ items p inp, ∃ n k, GivesNetwork env p i n k ∧ InNetwork (ip a.getIpv6.addr) n k) := by
  by_cases hm : p.config.sort &&& SORT_MERGE = 0
  · obtain ⟨l', h1, h2⟩ := C150_matches_partial env p inp h hm hs hnul hn
    rw [hl] at h1
    cases h1
    exact h2 a
  · obtain ⟨Q, h1, h2, h3⟩ := C150_merged env p inp h hm hs hnul hn
    obtain ⟨l', h4, h5⟩ := h3 fun h' => by rw [h2.2 h'] at hl; cases hl
    rw [hl] at h4
    cases h4
    obtain ⟨b, j1, j2⟩ := h5 a
    refine ⟨b, j1, j2.trans ?_⟩
    have apart : ∀ q ∈ Q, ∀ q' ∈ Q, q.1 + 1 ≠ q'.1 := fun q hq q' hq' => by
      obtain ⟨i, hi, g⟩ := (h1 q.1 q.2).1 hq
      obtain ⟨i', hi', g'⟩ := (h1 q'.1 q'.2).1 hq'
      exact ha i hi i' hi' _ _ _ _ g g'
    constructor
    · rintro ⟨q, hq, hx⟩
      obtain ⟨i, hi, g⟩ := (h1 q.1 q.2).1 hq
      refine ⟨i, hi, q.1, q.2, g, ?_⟩
      rcases hx with hx | ⟨_, hx⟩
      · rw [hx]
        exact inNetwork_self _ _
      · exact hx
    · rintro ⟨i, hi, n, k, g, hx⟩
      have hq := (h1 n k).2 ⟨i, hi, g⟩
      refine ⟨(n, k), hq, .inr ⟨?_, hx⟩⟩
      rintro ⟨q, hq', h' | h'⟩
      · exact apart (n, k) hq q hq' h'.symm
      · exact apart q hq' (n, k) hq h'

/-! ### A list -/

def hostNetworkParser : Parser := ParserOp.runAll [(sampleEnv, .setAllow 9 true)] hostListParser

theorem hostNetworkParser_names (inp : Str) : NetworkNames hostNetworkParser inp :=
  ⟨by decide, by decide, by decide, .inl (by decide), by unfold ListMode; decide, by unfold NoComments; decide, by decide, by decide⟩

theorem gate_left : ∀ i ∈ items hostNetworkParser "gate/24,gates".toList, ∀ t e m, Trims i t → CutMask t e m → ¬ LeftOut e := by
  intro i hi t e m ht hcut
  rw [show items hostNetworkParser "gate/24,gates".toList = ["gate/24".toList, "gates".toList] by decide +kernel] at hi
  have h1 : Trims "gate/24".toList "gate/24".toList := trims_self (by decide) (by decide)
  have h2 : Trims "gates".toList "gates".toList := trims_self (by decide) (by decide)
  rcases List.mem_cons.1 hi with rfl | hi
  · obtain rfl : t = "gate/24".toList := (trims_eq ht).symm.trans (trims_eq h1)
    obtain rfl : e = "gate".toList := congrArg Prod.fst ((cutMask_split hcut).symm.trans (cutMask_split ⟨by decide, .inr rfl⟩ : _ = ("gate".toList, "24".toList)))
    unfold LeftOut
    decide
  · obtain rfl : i = "gates".toList := List.mem_singleton.1 hi
    obtain rfl : t = "gates".toList := (trims_eq ht).symm.trans (trims_eq h2)
    obtain rfl : e = "gates".toList := congrArg Prod.fst ((cutMask_split hcut).symm.trans (cutMask_split ⟨by decide, .inl ⟨rfl, rfl⟩⟩ : _ = ("gates".toList, [])))
    unfold LeftOut
    decide

-- C150_matches_partial: the network of `gate` is let in, the other name is not known.
example : ∃ l, (Parser.parse hostsEnv "gate/24,gates".toList hostNetworkParser).2 = .ok l
    ∧ addressMatchRanges l (sampleV4 10 0 0 77) = .ok true := by
  obtain ⟨l, h1, h2⟩ := C150_matches_partial hostsEnv hostNetworkParser "gate/24,gates".toList (hostNetworkParser_names _) (by decide) hostsEnv_safe
    (by decide) gate_left
  refine ⟨l, h1, ?_⟩
  obtain ⟨b, h3, h4⟩ := h2 (sampleV4 10 0 0 77)
  have hg : GivesNetwork hostsEnv hostNetworkParser "gate/24".toList 0xFFFF0A000001 120 :=
    ⟨"gate/24".toList, "gate".toList, "24".toList, "gate".toList, [], _,
      trims_self (by decide) (by decide), ⟨by decide, .inr rfl⟩, .name (by decide) (by decide) (by decide), .inl (by decide),
      (by decide +kernel : answerTo hostsEnv hostNetworkParser "gate".toList []
        = .list (spread 6 [.inet sizeofIn 0 { family := AF_INET, port := 0x5000, addr := #v[10, 0, 0, 1], zero := Vector.replicate 8 0 }])), (by
        intro x hx
        have : ∀ y ∈ spread 6 [AddrInfo.inet sizeofIn 0 { family := AF_INET, port := 0x5000, addr := #v[10, 0, 0, 1], zero := Vector.replicate 8 0 }],
          usable y = true := by decide
        exact ⟨this x hx, .inr ⟨by decide, by decide, fun _ _ => by decide⟩⟩),
      _, List.mem_cons_self,
      .inr (.inl ⟨by decide, by unfold PlainText; exact ⟨by decide, by decide, by decide, .inr (.inl (by decide))⟩, by decide +kernel, by decide⟩),
      by decide +kernel⟩
  rw [h3, h4.2 ⟨"gate/24".toList, by decide +kernel, _, _, hg, by unfold InNetwork; decide +kernel⟩]

/-- A host with two addresses next to each other. -/
def twinEnv : ParseEnv :=
  { sampleEnv with
    getaddrinfo := fun node _ _ hint =>
      if node = "twin".toList then
        .list (spread hint [.inet sizeofIn 0 { family := AF_INET, port := 0, addr := #v[10, 0, 0, 255], zero := Vector.replicate 8 0 },
          .inet sizeofIn 0 { family := AF_INET, port := 0, addr := #v[10, 0, 1, 0], zero := Vector.replicate 8 0 }])
      else .error (-2) 0 }

def networkMergeParser : Parser := ParserOp.runAll [(sampleEnv, .setSortOrder SORT_MERGE)] hostNetworkParser

theorem networkMergeParser_names (inp : Str) : NetworkNames networkMergeParser inp :=
  ⟨by decide, by decide, by decide, .inl (by decide), by unfold ListMode; decide, by unfold NoComments; decide, by decide, by decide⟩

theorem twinEnv_safe : SafeAnswers twinEnv := by
  intro node service protocol l hp hl
  have hl : (if node = "twin".toList then
      GaiAnswer.list (spread protocol [.inet sizeofIn 0 { family := AF_INET, port := 0, addr := #v[10, 0, 0, 255], zero := Vector.replicate 8 0 },
        .inet sizeofIn 0 { family := AF_INET, port := 0, addr := #v[10, 0, 1, 0], zero := Vector.replicate 8 0 }])
    else .error (-2) 0) = .list l := hl
  split at hl
  · obtain rfl := GaiAnswer.list.inj hl
    intro x hx
    rcases hp with rfl | rfl | rfl
    · rcases (by simpa [spread, retag] using hx : x = _ ∨ x = _ ∨ x = _ ∨ x = _ ∨ x = _ ∨ x = _) with rfl | rfl | rfl | rfl | rfl | rfl <;>
        exact fun _ => ⟨rfl, by unfold KnownProtocol; decide⟩
    · rcases (by simpa [spread, retag] using hx : x = _ ∨ x = _) with rfl | rfl <;>
        exact fun _ => ⟨rfl, by unfold KnownProtocol; decide⟩
    · rcases (by simpa [spread, retag] using hx : x = _ ∨ x = _) with rfl | rfl <;>
        exact fun _ => ⟨rfl, by unfold KnownProtocol; decide⟩
  · cases hl

theorem twin_items : items networkMergeParser "twin/24".toList = ["twin/24".toList] := by decide +kernel

theorem twin_left : ∀ i ∈ items networkMergeParser "twin/24".toList, ∀ t e m, Trims i t → CutMask t e m → ¬ LeftOut e := by
  intro i hi t e m ht hcut
  rw [twin_items] at hi
  obtain rfl : i = "twin/24".toList := List.mem_singleton.1 hi
  obtain rfl : t = "twin/24".toList := (trims_eq ht).symm.trans (trims_eq (trims_self (by decide) (by decide)))
  obtain rfl : e = "twin".toList := congrArg Prod.fst ((cutMask_split hcut).symm.trans (cutMask_split ⟨by decide, .inr rfl⟩ : _ = ("twin".toList, "24".toList)))
  unfold LeftOut
  decide

theorem twin_gives : GivesNetwork twinEnv networkMergeParser "twin/24".toList 0xFFFF0A000100 120 :=
  ⟨"twin/24".toList, "twin".toList, "24".toList, "twin".toList, [], _,
    trims_self (by decide) (by decide), ⟨by decide, .inr rfl⟩, .name (by decide) (by decide) (by decide), .inl (by decide),
    (by decide +kernel : answerTo twinEnv networkMergeParser "twin".toList []
      = .list (spread 6 [.inet sizeofIn 0 { family := AF_INET, port := 0, addr := #v[10, 0, 0, 255], zero := Vector.replicate 8 0 },
          .inet sizeofIn 0 { family := AF_INET, port := 0, addr := #v[10, 0, 1, 0], zero := Vector.replicate 8 0 }])), (by
      intro x hx
      have : ∀ y ∈ spread 6 [AddrInfo.inet sizeofIn 0 { family := AF_INET, port := 0, addr := #v[10, 0, 0, 255], zero := Vector.replicate 8 0 },
          .inet sizeofIn 0 { family := AF_INET, port := 0, addr := #v[10, 0, 1, 0], zero := Vector.replicate 8 0 }],
        usable y = true := by decide
      exact ⟨this x hx, .inr ⟨by decide, by decide, fun _ _ => by decide⟩⟩),
    _, List.mem_cons_of_mem _ List.mem_cons_self,
    .inr (.inl ⟨by decide, by unfold PlainText; exact ⟨by decide, by decide, by decide, .inr (.inl (by decide))⟩, by decide +kernel, by decide⟩),
    by decide +kernel⟩

/-- C150 fails: the network of 24 bits around 10.0.1.0, an address of `twin`, is lost because 10.0.0.255 is another one. -/
theorem C150_claim_fails : ¬ C150_claim := by
  intro h
  obtain ⟨l, h1, h2⟩ := h twinEnv networkMergeParser "twin/24".toList (networkMergeParser_names _) twinEnv_safe (by decide) twin_left
  obtain ⟨b, h3, h4⟩ := h2 (sampleV4 10 0 1 5)
  have hb : b = true := h4.2 ⟨_, by rw [twin_items]; exact List.mem_cons_self, _, _, twin_gives, by unfold InNetwork; decide +kernel⟩
  rw [hb] at h3
  have key : (match (Parser.parse twinEnv "twin/24".toList networkMergeParser).2 with
      | .ok l => (match addressMatchRanges l (sampleV4 10 0 1 5) with | .ok false => true | _ => false)
      | _ => false) = true := by decide +kernel
  rw [h1] at key
  dsimp only at key
  rw [h3] at key
  cases key

-- C150_merged: the hypotheses hold of the list of which the claim fails.
example : networkMergeParser.config.sort &&& SORT_MERGE ≠ 0 := by decide

example : ∃ Q : List (Nat × Nat), (0xFFFF0A000100, 120) ∈ Q
    ∧ ((Parser.parse twinEnv "twin/24".toList networkMergeParser).2 = .throw .outOfRange ↔ Spec.Clash Q) := by
  obtain ⟨Q, h1, h2, _⟩ := C150_merged twinEnv networkMergeParser "twin/24".toList (networkMergeParser_names _) (by decide) twinEnv_safe
    (by decide) twin_left
  exact ⟨Q, (h1 _ _).2 ⟨_, by rw [twin_items]; exact List.mem_cons_self, twin_gives⟩, h2⟩

-- C150_apart: the only address which `hostsEnv` knows has no other one next to it.
example : ∀ i ∈ items networkMergeParser "gate/24,gate".toList, ∀ i' ∈ items networkMergeParser "gate/24,gate".toList, ∀ n k n' k',
    GivesNetwork hostsEnv networkMergeParser i n k → GivesNetwork hostsEnv networkMergeParser i' n' k' → n + 1 ≠ n' := by
  have one : ∀ i n k, GivesNetwork hostsEnv networkMergeParser i n k → n = 0xFFFF0A000001 := by
    rintro i n k ⟨_, _, _, u, q, l, _, _, _, _, hl, _, x, hx, _, rfl⟩
    have hl : (if cstr u = "gate".toList then
        GaiAnswer.list (spread 6 [.inet sizeofIn 0 { family := AF_INET, port := 0x5000, addr := #v[10, 0, 0, 1], zero := Vector.replicate 8 0 }])
      else .error (-2) 0) = .list l := hl
    split at hl
    · obtain rfl := GaiAnswer.list.inj hl
      obtain rfl := (by simpa [spread, retag] using hx : x = _)
      decide +kernel
    · cases hl
  intro i _ i' _ n k n' k' h h'
  rw [one i n k h, one i' n' k' h']
  decide

end Verif
