import Mathlib.Data.List.Perm.Basic
import Verif.Lemmas.MergeNetworks
import Verif.Props.ParserTotal

/-!
# Property C102: what a merged list of networks matches
-/

namespace Verif

open Spec

/-! ### The mask of the bound which is not there -/

namespace Parser

variable {env : ParseEnv} {c : Config}

/-- The mask of the upper bound is full. -/
def HiWhole (r : Range) : Prop := r.hi.getMaskSize = 128

theorem hiWhole_maskLoop (mask : Str) (v4 : Bool) (l : List Range) (hl : All HiWhole l) :
    Post c (maskLoop env mask v4 l) (All HiWhole) := by
  induction l with
  | nil => exact post_pure c (all_nil _)
  | cons x l ih =>
    rw [maskLoop]
    refine post_config (post_bind (post_parseMask env _ _ _) fun a ha => ?_)
    refine post_bind (ih fun r hr => hl r (List.mem_cons_of_mem _ hr)) fun l' hl' => post_pure c fun r hr => ?_
    rcases List.mem_cons.1 hr with rfl | hr
    · exact hl x List.mem_cons_self
    · exact hl' r hr

theorem hiWhole_parseCidr (s : Str) : Post c (parseCidr env s []) (All HiWhole) := by
  rw [parseCidr]
  refine post_config ?_
  dsimp only
  split
  · refine post_errorCountNow fun n => ?_
    refine post_bind (whole_parseAddress _ _) fun x hx => ?_
    refine post_bind (hiWhole_maskLoop _ _ _ fun r hr => (hx r hr).2) fun l hl => ?_
    refine post_errorCountNow fun m => ?_
    split
    · exact post_pure c (all_append (all_nil _) hl)
    · exact post_pure c (all_nil _)
  · exact post_bind (whole_parseAddress _ _) fun x hx => post_pure c fun r hr => (hx r hr).2

theorem hiWhole_seqEntries (es : List Str) : Post c (seqEntries env es) (All HiWhole) := by
  induction es with
  | nil => exact post_pure c (all_nil _)
  | cons e es ih =>
    rw [seqEntries]
    exact post_bind (hiWhole_parseCidr e) fun l hl => post_bind ih fun l' hl' => post_pure c (all_append hl hl')

theorem hiWhole_parseUnsorted (inp : Str) : Post c (parseUnsorted env inp) (All HiWhole) := by
  rw [parseUnsorted]
  refine post_config ?_
  split
  · rw [parseSingle]
    refine post_config ?_
    dsimp only
    split
    · exact post_bind (R := fun _ => True) (post_lift c fun _ _ => trivial) fun e _ => hiWhole_parseCidr e
    · exact hiWhole_parseCidr _
  · intro p hp
    rw [parseList_eq, hp]
    exact (post_prepend (all_nil _) (hiWhole_seqEntries _)) p hp

end Parser

/-! ### From the text to the list -/

/-- The networks written in the text, one by one. -/
def WritesNetworks (p : Parser) (inp : Str) (Q : List (Nat × Nat)) : Prop :=
  List.Forall₂ (fun e q => ∃ t, Trims e t ∧ Network t q.1 q.2) ((fields (separates p) inp).filter (· ≠ [])) Q

theorem readsNetworks_unsorted {p : Parser} (h : ReadsNetworks p) : ReadsNetworks (unsortedOf p) := by
  have hcfg := unsortedOf_config p
  exact {
    list := by rw [ListMode, hcfg]; exact h.list
    comments := by rw [NoComments, hcfg]; exact h.comments
    mask := by rw [hcfg]; exact h.mask
    lookup := by rw [hcfg]; exact h.lookup
    protocol := by rw [hcfg]; exact h.protocol
    port := by rw [hcfg]; exact h.port
    defaultPort := by rw [hcfg]; exact h.defaultPort
    mask4 := by rw [hcfg]; exact h.mask4
    mask6 := by rw [hcfg]; exact h.mask6 }

theorem unsorted_unsortedOf (p : Parser) : Unsorted (unsortedOf p) := by
  rw [Unsorted, unsortedOf_config]
  show (p.config.sort &&& SORT_NO_EMPTY) &&& 0x0F = 0
  rw [BitVec.and_assoc]
  simp [SORT_NO_EMPTY]

theorem parseEach_oneByOne {env : ParseEnv} {p : Parser} (h : ReadsNetworks p) (hs : Unsorted p) {es : List Str} {Q : List (Nat × Nat)}
    (he : ∀ e ∈ es, e ≠ [] ∧ ∀ x ∈ e, separates p x = false) (hq : List.Forall₂ (fun e q => ∃ t, Trims e t ∧ Network t q.1 q.2) es Q) :
    ∃ l, parseEach env es p = (p, .ok l) ∧ List.Forall₂ (fun r q => IsNetwork r q.1 q.2) l Q := by
  induction hq with
  | nil => exact ⟨[], rfl, .nil⟩
  | @cons e q es Q hq _ ih =>
    obtain ⟨l, h1, h2⟩ := ih fun e' he' => he e' (List.mem_cons_of_mem _ he')
    obtain ⟨g1, g2⟩ := he e List.mem_cons_self
    obtain ⟨t, g3, g4⟩ := hq
    obtain ⟨r, h4, h5⟩ := parse_network (env := env) h hs g1 g2 g3 g4
    refine ⟨r :: l, ?_, .cons h5 h2⟩
    simp only [parseEach, h4, h1]
    rfl

theorem oneNetwork_of {l : List Range} {Q : List (Nat × Nat)} (h : List.Forall₂ (fun r q => IsNetwork r q.1 q.2) l Q)
    (hi : ∀ r ∈ l, Parser.HiWhole r) : List.Forall₂ OneNetwork l Q := by
  induction h with
  | nil => exact .nil
  | @cons r q l Q hrq _ ih =>
    exact .cons ⟨hrq, hi r List.mem_cons_self⟩ (ih fun r' hr' => hi r' (List.mem_cons_of_mem _ hr'))

/-- What is read, before it is sorted. -/
theorem networks_read (env : ParseEnv) {p : Parser} {inp : Str} {Q : List (Nat × Nat)} (h : ReadsNetworks p) (hq : WritesNetworks p inp Q) :
    ∃ l, Parser.parse env inp (unsortedOf p) = (unsortedOf p, .ok l) ∧ List.Forall₂ OneNetwork l Q := by
  have hr := readsNetworks_unsorted h
  have hs := unsorted_unsortedOf p
  have hsep : separates (unsortedOf p) = separates p := by
    funext x
    rw [separates, separates, unsortedOf_config]
  obtain ⟨l, h1, h2⟩ := parseEach_oneByOne (env := env) hr hs (es := (fields (separates p) inp).filter (· ≠ [])) (Q := Q) (by
    intro e he
    rw [List.mem_filter] at he
    exact ⟨by simpa using he.2, by rw [hsep]; exact fields_mem _ _ _ he.1⟩) hq
  have h4 : Parser.parse env inp (unsortedOf p) = (unsortedOf p, .ok l) := by
    rw [C41_entrywise env inp (unsortedOf p) hr.list hr.comments hs, hsep]
    exact h1
  refine ⟨l, h4, ?_⟩
  have h5 := (Parser.hiWhole_parseUnsorted (env := env) (c := (unsortedOf p).config) inp (unsortedOf p) rfl).2 l (by
    rw [← parse_unsortedOf, h4])
  exact oneNetwork_of h2 h5

theorem forall₂_first {l : List Range} {Q : List (Nat × Nat)} (h : List.Forall₂ OneNetwork l Q) : Q.map Prod.fst = l.map first := by
  induction h with
  | nil => rfl
  | cons h _ ih => rw [List.map_cons, List.map_cons, ih, h.first]

theorem forall₂_defined {l : List Range} {Q : List (Nat × Nat)} (h : List.Forall₂ OneNetwork l Q) : ∀ r ∈ l, Defined r ∧ first r ≤ last r := by
  induction h with
  | nil => exact fun r hr => nomatch hr
  | @cons r q l Q h _ ih =>
    intro r' hr'
    rcases List.mem_cons.1 hr' with rfl | hr'
    · exact ⟨h.defined, by rw [h.first, h.last]⟩
    · exact ih r' hr'

/-- What merging does with a list of networks. -/
theorem sortResult_networks (s : BitVec 64) (hm : s &&& SORT_MERGE ≠ 0) {l : List Range} {Q : List (Nat × Nat)}
    (hl : List.Forall₂ OneNetwork l Q) :
    (Parser.sortResult s l = .throw .outOfRange ∧ Clash Q)
      ∨ ∃ l', Parser.sortResult s l = .ok l' ∧ ¬ Clash Q
        ∧ ∀ a : Addr, (∃ r ∈ l', r.matchAddr a = .ok true) ↔ LeftOf Q (ip a.getIpv6.addr) := by
  have hd := forall₂_defined hl
  have hstep : mergeStep s = Parser.mergeAll := funext fun l => if_pos hm
  rw [sortResult_eq, if_pos (merge_or_full s hm), hstep]
  obtain ⟨l1, e1, hs1⟩ := Parser.stableSort_ok (Parser.orders_lt fun r hr => (hd r hr).1)
  obtain ⟨Q1, hQ1, hperm⟩ := List.perm_comp_forall₂ hs1.perm hl
  rw [← clash_perm hperm]
  simp only [← leftOf_congr (fun q => hperm.mem_iff)]
  have hd1 := forall₂_defined hQ1
  have hord : Q1.Pairwise fun a b => a.1 ≤ b.1 := by
    have h1 : (l1.map first).Pairwise (· ≤ ·) := by
      rw [List.pairwise_map]
      refine hs1.order.imp_of_mem fun {a b} ha hb hab => ?_
      exact (Parser.startsBefore_of_lt (hd1 a ha).1 (hd1 b hb).1 hab).2 (hd1 b hb).2
    rw [← forall₂_first hQ1, List.pairwise_map] at h1
    exact h1
  rw [e1]
  simp only [Res.bind_ok]
  have hmerge : (Parser.mergeAll l1 = .throw .outOfRange ∧ Clash Q1)
      ∨ ∃ l', Parser.mergeAll l1 = .ok l' ∧ ¬ Clash Q1
        ∧ ∀ a : Addr, (∃ r ∈ l', r.matchAddr a = .ok true) ↔ LeftOf Q1 (ip a.getIpv6.addr) := by
    cases hQ1 with
    | nil =>
      refine .inr ⟨[], rfl, ?_, fun a => ?_⟩
      · rintro ⟨a, ha, _⟩
        cases ha
      · constructor
        · rintro ⟨r, hr, _⟩
          cases hr
        · rintro ⟨r, hr, _⟩
          cases hr
    | @cons cur q l2 Q2 hc hl2 =>
      rw [List.pairwise_cons] at hord
      exact mergeLoop_networks cur [q] l2 Q2 hc.stands hl2 (fun x hx => by rw [hc.last]; exact hord.1 x hx) hord.2
  rcases hmerge with ⟨h1, h2⟩ | ⟨l2, h1, h2, h3⟩
  · exact .inl ⟨by rw [h1]; rfl, h2⟩
  · right
    have hd2 : ∀ r ∈ l2, Defined r := by
      cases l1 with
      | nil => cases h1; exact fun r hr => (nomatch hr)
      | cons cur l1 =>
        rcases Parser.mergeLoop_outcome cur l1 (hd1 cur List.mem_cons_self).1 (fun r hr => (hd1 r (List.mem_cons_of_mem _ hr)).1)
          with h' | ⟨l2', h', h'', _⟩
        · exact absurd (h'.symm.trans h1) (fun h => nomatch h)
        · have := h'.symm.trans h1
          cases this
          exact h''
    obtain ⟨l', e3, hp, _⟩ := familyStep_ok s hd2
    refine ⟨l', by rw [h1]; exact e3, h2, fun a => ?_⟩
    rw [← h3 a]
    simp only [hp.mem_iff]

/-! ## C102 -/

/-- C102: a parser which merges reads a list of networks without an error; it throws exactly when two of them clash, and otherwise the list
returned matches exactly what is left of the networks. -/
theorem C102_exact (env : ParseEnv) (p : Parser) (inp : Str) (Q : List (Nat × Nat)) (h : ReadsNetworks p)
    (hm : p.config.sort &&& SORT_MERGE ≠ 0) (hq : WritesNetworks p inp Q) :
    (Parser.parse env inp p).1.getErrorCount = p.getErrorCount ∧ (Parser.parse env inp p).1.errorMessages = p.errorMessages
      ∧ ((Parser.parse env inp p).2 = .throw .outOfRange ↔ Clash Q)
      ∧ (¬ Clash Q → ∃ l, (Parser.parse env inp p).2 = .ok l
          ∧ ∀ a : Addr, ∃ b, addressMatchRanges l a = .ok b ∧ (b = true ↔ LeftOf Q (ip a.getIpv6.addr))) := by
  obtain ⟨l, h1, h2⟩ := networks_read env h hq
  obtain ⟨e1, e2, _, _, e5⟩ := parse_sort env inp p
  rw [h1] at e1 e2 e5
  have e := (e5 l rfl).2
  refine ⟨e2.trans (unsortedOf_error p).2, e1.trans (unsortedOf_error p).1, ?_⟩
  rw [e]
  rcases sortResult_networks p.config.sort hm h2 with ⟨h3, h4⟩ | ⟨l', h3, h4, h5⟩
  · exact ⟨⟨fun _ => h4, fun _ => h3⟩, fun h' => absurd h4 h'⟩
  · refine ⟨⟨fun h' => ?_, fun h' => absurd h' h4⟩, fun _ => ⟨l', h3, fun a => ?_⟩⟩
    · rw [h3] at h'
      cases h'
    · obtain ⟨b, j1, j2⟩ := C35_any_range l' a
      exact ⟨b, j1, j2.trans (h5 a)⟩

/-- C102: when no two of the numbers written follow each other, a list which can be merged matches exactly the addresses of the networks. -/
theorem C102_apart (env : ParseEnv) (p : Parser) (inp : Str) (Q : List (Nat × Nat)) (h : ReadsNetworks p)
    (hm : p.config.sort &&& SORT_MERGE ≠ 0) (hq : WritesNetworks p inp Q) (ha : ∀ a ∈ Q, ∀ b ∈ Q, a.1 + 1 ≠ b.1) (l : List Range)
    (hl : (Parser.parse env inp p).2 = .ok l) (a : Addr) :
    ∃ b, addressMatchRanges l a = .ok b ∧ (b = true ↔ ∃ q ∈ Q, InNetwork (ip a.getIpv6.addr) q.1 q.2) := by
  obtain ⟨_, _, h1, h2⟩ := C102_exact env p inp Q h hm hq
  obtain ⟨l', h3, h4⟩ := h2 fun hc => by rw [h1.2 hc] at hl; cases hl
  rw [hl] at h3
  cases h3
  obtain ⟨b, j1, j2⟩ := h4 a
  refine ⟨b, j1, j2.trans ?_⟩
  constructor
  · rintro ⟨q, hq, hx | ⟨_, hx⟩⟩
    · exact ⟨q, hq, by rw [hx]; exact inNetwork_self _ _⟩
    · exact ⟨q, hq, hx⟩
  · rintro ⟨q, hq, hx⟩
    refine ⟨q, hq, .inr ⟨?_, hx⟩⟩
    rintro ⟨q', hq', hn | hn⟩
    · exact ha q hq q' hq' hn.symm
    · exact ha q' hq' q hq hn

/-- The bits of the number which do not count are zero, and there is such a bit. -/
def Aligned (q : Nat × Nat) : Prop := q.2 < 128 ∧ q.1 % 2 ^ (128 - q.2) = 0

theorem aligned_even {q : Nat × Nat} (h : Aligned q) : q.1 % 2 = 0 := by
  have h1 : 2 ^ 1 ∣ 2 ^ (128 - q.2) := Nat.pow_dvd_pow 2 (by have := h.1; omega)
  exact Nat.mod_eq_zero_of_dvd (Nat.dvd_trans h1 (Nat.dvd_of_mod_eq_zero h.2))

theorem aligned_v4 {q : Nat × Nat} (h : Aligned q) (h4 : isV4 q.1) : 96 ≤ q.2 := by
  rcases Nat.lt_or_ge q.2 96 with hk | hk
  · exfalso
    have h1 : 2 ^ 33 ∣ 2 ^ (128 - q.2) := Nat.pow_dvd_pow 2 (by omega)
    have h2 := Nat.mod_eq_zero_of_dvd (Nat.dvd_trans h1 (Nat.dvd_of_mod_eq_zero h.2))
    unfold isV4 inBlock at h4
    omega
  · exact hk

/-- C102: a list of networks written with their first address is always merged, and matches exactly the addresses of the networks. -/
theorem C102_aligned (env : ParseEnv) (p : Parser) (inp : Str) (Q : List (Nat × Nat)) (h : ReadsNetworks p)
    (hm : p.config.sort &&& SORT_MERGE ≠ 0) (hq : WritesNetworks p inp Q) (ha : ∀ q ∈ Q, Aligned q) :
    ∃ l, (Parser.parse env inp p).2 = .ok l
      ∧ ∀ a : Addr, ∃ b, addressMatchRanges l a = .ok b ∧ (b = true ↔ ∃ q ∈ Q, InNetwork (ip a.getIpv6.addr) q.1 q.2) := by
  obtain ⟨_, _, _, h2⟩ := C102_exact env p inp Q h hm hq
  have hodd : ∀ a ∈ Q, ∀ b ∈ Q, a.1 + 1 ≠ b.1 := fun a h1 b h2 h3 => by
    have := aligned_even (ha a h1)
    have := aligned_even (ha b h2)
    omega
  obtain ⟨l, h3, _⟩ := h2 (by
    rintro ⟨a, h1, h4, _, b, h5, hab, hf, hk, _⟩
    have hb : a.1 = b.1 := by
      rcases Nat.lt_or_ge a.1 b.1 with hlt | hge
      · obtain ⟨q, hq, hq'⟩ := hf (a.1 + 1) ⟨by omega, by omega⟩
        exact absurd hq'.symm (hodd a h1 q hq)
      · omega
    have := aligned_v4 (ha a h1) h4
    have := aligned_v4 (ha b h5) (by rw [← hb]; exact h4)
    omega)
  exact ⟨l, h3, fun a => C102_apart env p inp Q h hm hq hodd l h3 a⟩

/-- C102: a list of addresses alone is always merged, and matches exactly these addresses. -/
theorem C102_hosts (env : ParseEnv) (p : Parser) (inp : Str) (Q : List (Nat × Nat)) (h : ReadsNetworks p)
    (hm : p.config.sort &&& SORT_MERGE ≠ 0) (hq : WritesNetworks p inp Q) (ha : ∀ q ∈ Q, q.2 = 128) :
    ∃ l, (Parser.parse env inp p).2 = .ok l
      ∧ ∀ a : Addr, ∃ b, addressMatchRanges l a = .ok b ∧ (b = true ↔ ∃ q ∈ Q, ip a.getIpv6.addr = q.1) := by
  obtain ⟨_, _, _, h2⟩ := C102_exact env p inp Q h hm hq
  obtain ⟨l, h3, h4⟩ := h2 (by
    rintro ⟨a, h1, _, _, b, h5, _, _, hk, _⟩
    have := ha a h1
    have := ha b h5
    omega)
  refine ⟨l, h3, fun a => ?_⟩
  obtain ⟨b, j1, j2⟩ := h4 a
  refine ⟨b, j1, j2.trans ?_⟩
  constructor
  · rintro ⟨q, hq, hx | ⟨_, hx⟩⟩
    · exact ⟨q, hq, hx⟩
    · refine ⟨q, hq, ?_⟩
      rw [InNetwork, ha q hq] at hx
      simpa using hx
  · rintro ⟨q, hq, hx⟩
    exact ⟨q, hq, .inl hx⟩

/-! ### Examples -/

theorem network_host {v : Nat} (hv : v < 2 ^ 32) : Network (dotted v) (0xFFFF00000000 + v) 128 := .host (.inl ⟨v, hv, rfl, rfl⟩)

/-- C102_exact: an address and the network after it, of which the merged list does not match the addresses. -/
theorem C102_loses_network : ∃ l, (Parser.parse sampleEnv "10.0.0.255,10.0.1.0/24".toList mergeParser).2 = .ok l
    ∧ addressMatchRanges l (sampleV4 10 0 1 0) = .ok true ∧ addressMatchRanges l (sampleV4 10 0 1 5) = .ok false := by
  have hf : fields (separates mergeParser) "10.0.0.255,10.0.1.0/24".toList = ["10.0.0.255".toList, "10.0.1.0/24".toList] := by
    decide +kernel
  have hq : WritesNetworks mergeParser "10.0.0.255,10.0.1.0/24".toList [(0xFFFF0A0000FF, 128), (0xFFFF0A000100, 120)] := by
    unfold WritesNetworks
    rw [hf]
    refine .cons ⟨_, trims_self (by decide) (by decide), ?_⟩ (.cons ⟨_, trims_self (by decide) (by decide), ?_⟩ .nil)
    · exact network_host (v := 0x0A0000FF) (by decide)
    · exact .v4 (v := 0x0A000100) (s := "24".toList) (by decide) (by decide) (by decide) (by decide)
  obtain ⟨_, _, _, h⟩ := C102_exact sampleEnv mergeParser _ _ mergeParser_reads (by decide) hq
  obtain ⟨l, h1, h2⟩ := h (by
    rintro ⟨a, h1, _, _, b, h5, _, _, hk, _⟩
    simp only [List.mem_cons, List.not_mem_nil, or_false] at h1 h5
    rcases h1 with rfl | rfl <;> rcases h5 with rfl | rfl <;> omega)
  refine ⟨l, h1, ?_, ?_⟩
  · obtain ⟨b, j1, j2⟩ := h2 (sampleV4 10 0 1 0)
    rw [j1, j2.2 ⟨(0xFFFF0A000100, 120), by simp, .inl (by decide +kernel)⟩]
  · obtain ⟨b, j1, j2⟩ := h2 (sampleV4 10 0 1 5)
    have : ip (sampleV4 10 0 1 5).getIpv6.addr = 0xFFFF0A000105 := by decide +kernel
    rw [this] at j2
    rw [j1]
    cases b with
    | false => rfl
    | true =>
      exfalso
      obtain ⟨q, hq, hx⟩ := j2.1 rfl
      simp only [List.mem_cons, List.not_mem_nil, or_false] at hq
      rcases hq with rfl | rfl
      · rcases hx with hx | ⟨hn, _⟩
        · exact absurd hx (by decide)
        · exact hn ⟨(0xFFFF0A000100, 120), by simp, by decide⟩
      · rcases hx with hx | ⟨hn, _⟩
        · exact absurd hx (by decide)
        · exact hn ⟨(0xFFFF0A0000FF, 128), by simp, by decide⟩

/-- C102_aligned on two networks next to each other, which stay two ranges. -/
example : ∃ l, (Parser.parse sampleEnv "10.0.0.0/24,10.0.1.0/24".toList mergeParser).2 = .ok l
    ∧ addressMatchRanges l (sampleV4 10 0 1 5) = .ok true := by
  have hf : fields (separates mergeParser) "10.0.0.0/24,10.0.1.0/24".toList = ["10.0.0.0/24".toList, "10.0.1.0/24".toList] := by
    decide +kernel
  have hq : WritesNetworks mergeParser "10.0.0.0/24,10.0.1.0/24".toList [(0xFFFF0A000000, 120), (0xFFFF0A000100, 120)] := by
    unfold WritesNetworks
    rw [hf]
    refine .cons ⟨_, trims_self (by decide) (by decide), ?_⟩ (.cons ⟨_, trims_self (by decide) (by decide), ?_⟩ .nil)
    · exact .v4 (v := 0x0A000000) (s := "24".toList) (by decide) (by decide) (by decide) (by decide)
    · exact .v4 (v := 0x0A000100) (s := "24".toList) (by decide) (by decide) (by decide) (by decide)
  obtain ⟨l, h1, h2⟩ := C102_aligned sampleEnv mergeParser _ _ mergeParser_reads (by decide) hq (by
    intro q hq
    simp only [List.mem_cons, List.not_mem_nil, or_false] at hq
    unfold Aligned
    rcases hq with rfl | rfl <;> decide)
  obtain ⟨b, j1, j2⟩ := h2 (sampleV4 10 0 1 5)
  exact ⟨l, h1, by rw [j1, j2.2 ⟨(0xFFFF0A000100, 120), by simp, by unfold InNetwork; decide +kernel⟩]⟩

/-- C102_hosts and C102_apart on two addresses. -/
example : ∃ l, (Parser.parse sampleEnv "10.0.0.1,10.0.0.3".toList mergeParser).2 = .ok l
    ∧ addressMatchRanges l (sampleV4 10 0 0 3) = .ok true := by
  have hf : fields (separates mergeParser) "10.0.0.1,10.0.0.3".toList = ["10.0.0.1".toList, "10.0.0.3".toList] := by
    decide +kernel
  have hq : WritesNetworks mergeParser "10.0.0.1,10.0.0.3".toList [(0xFFFF0A000001, 128), (0xFFFF0A000003, 128)] := by
    unfold WritesNetworks
    rw [hf]
    refine .cons ⟨_, trims_self (by decide) (by decide), ?_⟩ (.cons ⟨_, trims_self (by decide) (by decide), ?_⟩ .nil)
    · exact network_host (v := 0x0A000001) (by decide)
    · exact network_host (v := 0x0A000003) (by decide)
  obtain ⟨l, h1, _⟩ := C102_hosts sampleEnv mergeParser _ _ mergeParser_reads (by decide) hq (by simp)
  obtain ⟨b, j1, j2⟩ := C102_apart sampleEnv mergeParser _ _ mergeParser_reads (by decide) hq (by decide) l h1 (sampleV4 10 0 0 3)
  exact ⟨l, h1, by rw [j1, j2.2 ⟨(0xFFFF0A000003, 128), by simp, by unfold InNetwork; decide +kernel⟩]⟩

/-- The last IPv4 address and the network of 64 bits which starts after it clash. -/
example : Clash [(0xFFFFFFFFFFFF, 128), (0x1000000000000, 64)] := by
  refine ⟨(0xFFFFFFFFFFFF, 128), by simp, by decide, by decide, (0x1000000000000, 64), by simp, by decide, ?_, by decide, by decide⟩
  rintro v ⟨h1, h2⟩
  dsimp only at h1 h2
  rcases Nat.lt_or_ge v 0x1000000000000 with h | h
  · exact ⟨_, List.mem_cons_self, by dsimp only; omega⟩
  · exact ⟨_, List.mem_cons_of_mem _ List.mem_cons_self, by dsimp only; omega⟩

end Verif
