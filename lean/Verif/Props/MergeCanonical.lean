import Verif.Lemmas.Components
import Verif.Lemmas.ParserWhole
import Verif.Props.ParserSort
import Verif.Props.CommentList

/-!
# Property C96: the merged list is the canonical form of the addresses read
-/

namespace Verif

open Spec

/-- The bounds of the ranges of a list, the empty ranges left out. -/
def intervals (l : List Range) : List (Nat × Nat) :=
  (l.filter fun r => decide (first r ≤ last r)).map fun r => (first r, last r)

/-- The intervals hold the number. -/
def HeldBy (l : List (Nat × Nat)) (v : Nat) : Prop := ∃ c ∈ l, between v c.1 c.2

/-- The sort orders put the same family first. -/
def SameFamilyFirst (p q : Parser) : Prop :=
  p.config.sort &&& SORT_IPV4_FIRST = q.config.sort &&& SORT_IPV4_FIRST
    ∧ p.config.sort &&& SORT_IPV6_FIRST = q.config.sort &&& SORT_IPV6_FIRST

/-! ### The vocabulary above in terms of the model -/

theorem mem_intervals {l : List Range} {c : Nat × Nat} : c ∈ intervals l ↔ ∃ r ∈ l, first r ≤ last r ∧ c = (first r, last r) := by
  rw [intervals, List.mem_map]
  constructor
  · rintro ⟨r, hr, rfl⟩
    rw [List.mem_filter, decide_eq_true_iff] at hr
    exact ⟨r, hr.1, hr.2, rfl⟩
  · rintro ⟨r, hr, h, rfl⟩
    exact ⟨r, List.mem_filter.2 ⟨hr, decide_eq_true h⟩, rfl⟩

theorem held_intervals (l : List Range) (v : Nat) : HeldBy (intervals l) v ↔ Holding l v := by
  constructor
  · rintro ⟨c, hc, hv⟩
    obtain ⟨r, hr, _, rfl⟩ := mem_intervals.1 hc
    exact ⟨r, hr, hv⟩
  · rintro ⟨r, hr, hv⟩
    exact ⟨_, mem_intervals.2 ⟨r, hr, Nat.le_trans hv.1 hv.2, rfl⟩, hv⟩

/-- The group as a function of the bounds. -/
def groupOf (sort : BitVec 64) (c : Nat × Nat) : Nat :=
  if sort &&& SORT_IPV4_FIRST = 0 ∧ sort &&& SORT_IPV6_FIRST = 0 then 0
  else if c.2 < c.1 then 2
  else if (isV4 c.1 ∧ isV4 c.2) ↔ sort &&& SORT_IPV4_FIRST ≠ 0 then 0
  else 1

theorem groupOf_eq (sort : BitVec 64) (r : Range) : groupOf sort (first r, last r) = group sort r := rfl

theorem groupOf_congr {p q : Parser} (h : SameFamilyFirst p q) (c : Nat × Nat) : groupOf p.config.sort c = groupOf q.config.sort c := by
  rw [groupOf, groupOf, h.1, h.2]

/-- The order of the intervals of a merged list. -/
def Before (sort : BitVec 64) (a b : Nat × Nat) : Prop :=
  groupOf sort a < groupOf sort b ∨ (groupOf sort a = groupOf sort b ∧ a.1 < b.1)

theorem pairwise_intervals {l : List Range} {R : Range → Range → Prop} {S : Nat × Nat → Nat × Nat → Prop} (h : l.Pairwise R)
    (hs : ∀ a b, R a b → first a ≤ last a → first b ≤ last b → S (first a, last a) (first b, last b)) : (intervals l).Pairwise S := by
  rw [intervals, List.pairwise_map]
  have h1 : (l.filter fun r => decide (first r ≤ last r)).Pairwise R := h.sublist List.filter_sublist
  refine h1.imp_of_mem fun {a b} ha hb hab => ?_
  rw [List.mem_filter, decide_eq_true_iff] at ha hb
  exact hs a b hab ha.2 hb.2

theorem merged_intervals {env : ParseEnv} {inp : Str} {p : Parser} (hm : p.config.sort &&& SORT_MERGE ≠ 0) {l m : List Range}
    (hl : (Parser.parse env inp (unsortedOf p)).2 = .ok l) (hr : (Parser.parse env inp p).2 = .ok m) :
    (intervals m).Pairwise Components.Apart ∧ (intervals m).Pairwise (Before p.config.sort)
      ∧ (∀ c ∈ intervals m, c.1 ≤ c.2) ∧ ∀ v, HeldBy (intervals m) v ↔ Holding l v := by
  rcases C43_merge_partial env inp p hm l hl with h | ⟨m', h, _, h2, h3, h4, h5⟩
  · rw [h] at hr; cases hr
  rw [h] at hr
  cases hr
  have ha : (intervals m).Pairwise Components.Apart := pairwise_intervals h3 fun a b hab h6 h7 => hab h6 h7
  refine ⟨ha, ?_, ?_, fun v => (held_intervals _ v).trans (h2 v)⟩
  · have h6 : (intervals m).Pairwise fun a b => groupOf p.config.sort a ≤ groupOf p.config.sort b
        ∧ (groupOf p.config.sort a = groupOf p.config.sort b → a.1 ≤ b.1) ∧ a.1 ≤ a.2 ∧ b.1 ≤ b.2 :=
      pairwise_intervals (h4.and h5) fun a b hab h6 h7 => ⟨hab.1, fun e => hab.2 e h6 h7, h6, h7⟩
    refine (ha.and h6).imp fun {a b} hab => ?_
    obtain ⟨h7, h8, h9, h10, h11⟩ := hab
    by_cases e : groupOf p.config.sort a = groupOf p.config.sort b
    · refine .inr ⟨e, Nat.lt_of_le_of_ne (h9 e) fun he => h7 ⟨?_, ?_⟩⟩ <;> omega
    · exact .inl (Nat.lt_of_le_of_ne h8 e)
  · intro c hc
    obtain ⟨r, _, h6, rfl⟩ := mem_intervals.1 hc
    exact h6

/-- What is read from a list is what is read from its pieces. -/
theorem seqEntries_mem (env : ParseEnv) (c : Config) : ∀ (es : List Str) (q : Parser) (l : List Range), q.config = c →
    (Parser.seqEntries env es q).2 = .ok l → ∀ q0 : Parser, q0.config = c →
      ∀ r, r ∈ l ↔ ∃ e ∈ es, ∃ k, (Parser.parseCidr env e [] q0).2 = .ok k ∧ r ∈ k
  | [], q, l, _, h, q0, _, r => by
    cases h
    exact ⟨(fun h => nomatch h), (fun ⟨_, h, _⟩ => nomatch h)⟩
  | e :: es, q, l, hq, h, q0, h0, r => by
    obtain ⟨errs, x, hlog⟩ := Parser.logging_parseCidr env c e []
    rw [Parser.seqEntries] at h
    have h1 := hlog q hq
    have h2 := hlog q0 h0
    rcases x with k | ex | w
    · rw [PM.bind_of_ok h1, Parser.prepend] at h
      rcases hr : Parser.seqEntries env es (Parser.emitAll errs q) with ⟨q', y⟩
      rcases y with k' | ex | w
      · rw [PM.bind_of_ok hr] at h
        cases h
        have ih := seqEntries_mem env c es (Parser.emitAll errs q) k' hq (by rw [hr]) q0 h0 r
        rw [List.mem_append, ih]
        constructor
        · rintro (hk | ⟨e', he', h3⟩)
          · exact ⟨e, List.mem_cons_self, k, by rw [h2], hk⟩
          · exact ⟨e', List.mem_cons_of_mem _ he', h3⟩
        · rintro ⟨e', he', h3⟩
          rcases List.mem_cons.1 he' with rfl | he'
          · obtain ⟨k2, h4, h5⟩ := h3
            rw [h2] at h4
            cases h4
            exact .inl h5
          · exact .inr ⟨e', he', h3⟩
      · rw [PM.bind_of_throw hr] at h; cases h
      · rw [PM.bind_of_ub hr] at h; cases h
    · rw [PM.bind_of_throw h1] at h; cases h
    · rw [PM.bind_of_ub h1] at h; cases h

theorem pieces_unsorted (p : Parser) (inp : Str) : pieces (unsortedOf p) inp = pieces p inp := by
  rw [← pieces_eq, ← pieces_eq, unsortedOf_config]
  have key : ∀ (n : Nat) (s : Str), Parser.entriesOf { p.config with sort := p.config.sort &&& SORT_NO_EMPTY } n s = Parser.entriesOf p.config n s := by
    intro n
    induction n with
    | zero => exact fun s => rfl
    | succ n ih =>
      intro s
      rw [Parser.entriesOf, Parser.entriesOf]
      simp only [ih]
      rfl
  exact key _ _

theorem unsorted_read {env : ParseEnv} {inp : Str} {p : Parser} {m : List Range} (h : (Parser.parse env inp p).2 = .ok m) :
    ∃ l, (Parser.parse env inp (unsortedOf p)).2 = .ok l := by
  obtain ⟨_, _, h3, h4, _⟩ := parse_sort env inp p
  rcases hr : (Parser.parse env inp (unsortedOf p)).2 with l | e | w
  · exact ⟨l, rfl⟩
  · rw [h3 e hr] at h; cases h
  · rw [h4 w hr] at h; cases h

theorem unsortedOf_flags (p : Parser) : (unsortedOf p).config.flags = p.config.flags := by
  rw [unsortedOf_config]

theorem unsortedOf_unsorted (p : Parser) : Unsorted (unsortedOf p) := by
  rw [Unsorted, unsortedOf_config]
  exact unsortedOf_sort _

/-- A range with full masks matches the addresses between its bounds. -/
theorem whole_match {r : Range} (hd : Defined r) (h : Parser.Whole r) (a : Addr) :
    r.matchAddr a = .ok true ↔ between (ip a.getIpv6.addr) (first r) (last r) := by
  have one (x : Addr) (hx : x.getMaskSize = 128) : x.matchAddr a = true ↔ ip a.getIpv6.addr = ip x.getIpv6.addr := by
    have := network_match (r := { Range.default with hasFrom := true, lo := x }) (n := ip x.getIpv6.addr) (k := 128)
      ⟨rfl, rfl, rfl, by omega, (C09_mask_size_iff x 128 (by omega)).1 hx⟩ a
    have he : Range.matchAddr { Range.default with hasFrom := true, lo := x } a = .ok (x.matchAddr a) := by
      simp [Range.matchAddr, Range.isEmpty, Range.isRange, Range.default]
    rw [he] at this
    simp only [Res.ok.injEq] at this
    rw [this, InNetwork]
    simp
  by_cases h1 : r.hasFrom = true
  · by_cases h2 : r.hasTo = true
    · obtain ⟨b, h3, h4⟩ := C24_match_complete r a ⟨h1, h2⟩
      rw [h3, first, last, if_pos h1, if_pos h2, ← h4]
      simp
    · have h2 : r.hasTo = false := by simpa using h2
      have he : r.matchAddr a = .ok (r.lo.matchAddr a) := by
        simp [Range.matchAddr, Range.isEmpty, Range.isRange, h1, h2]
      rw [he, first, last, if_pos h1, if_neg (by rw [h2]; decide), fromIp, between]
      simp only [Res.ok.injEq]
      rw [one _ h.1]
      omega
  · have h2 : r.hasTo = true := hd.resolve_left h1
    have h1 : r.hasFrom = false := by simpa using h1
    have he : r.matchAddr a = .ok (r.hi.matchAddr a) := by
      simp [Range.matchAddr, Range.isEmpty, Range.isRange, h1, h2]
    rw [he, first, last, if_neg (by rw [h1]; decide), if_pos h2, toIp, between]
    simp only [Res.ok.injEq]
    rw [one _ h.2]
    omega

theorem whole_matches {l : List Range} (hd : ∀ r ∈ l, Defined r) (h : ∀ r ∈ l, Parser.Whole r) (a : Addr) :
    ∃ b, addressMatchRanges l a = .ok b ∧ (b = true ↔ Holding l (ip a.getIpv6.addr)) := by
  obtain ⟨b, h1, h2⟩ := C35_any_range l a
  refine ⟨b, h1, h2.trans ⟨?_, ?_⟩⟩
  · rintro ⟨r, hr, hm⟩
    exact ⟨r, hr, (whole_match (hd r hr) (h r hr) a).1 hm⟩
  · rintro ⟨r, hr, hm⟩
    exact ⟨r, hr, (whole_match (hd r hr) (h r hr) a).2 hm⟩

/-! ### C96 -/

/-- C96: two merged lists have the same intervals, in the same order, exactly when the lists read hold the same addresses. -/
theorem C96_canonical (env env' : ParseEnv) (p q : Parser) (inp inp' : Str) (hp : p.config.sort &&& SORT_MERGE ≠ 0)
    (hq : q.config.sort &&& SORT_MERGE ≠ 0) (hs : SameFamilyFirst p q) (l l' m m' : List Range)
    (hl : (Parser.parse env inp (unsortedOf p)).2 = .ok l) (hl' : (Parser.parse env' inp' (unsortedOf q)).2 = .ok l')
    (hm : (Parser.parse env inp p).2 = .ok m) (hm' : (Parser.parse env' inp' q).2 = .ok m') :
    intervals m = intervals m' ↔ ∀ v, Holding l v ↔ Holding l' v := by
  obtain ⟨a1, a2, a3, a4⟩ := merged_intervals hp hl hm
  obtain ⟨b1, b2, b3, b4⟩ := merged_intervals hq hl' hm'
  constructor
  · intro h v
    rw [← a4, ← b4, h]
  · intro h
    have hv : ∀ v, HeldBy (intervals m) v ↔ HeldBy (intervals m') v := fun v => (a4 v).trans ((h v).trans (b4 v).symm)
    have b2' : (intervals m').Pairwise (Before p.config.sort) := b2.imp fun {a b} hab => by
      rw [Before, groupOf_congr hs, groupOf_congr hs]
      exact hab
    refine Components.eq_of_sorted (fun a b h1 h2 => ?_) a2 b2' fun c =>
      ⟨fun hc => Components.mem_of a1 b1 a3 b3 hv hc, fun hc => Components.mem_of b1 a1 b3 a3 (fun v => (hv v).symm) hc⟩
    rcases h1 with h1 | ⟨h1, h3⟩ <;> rcases h2 with h2 | ⟨h2, h4⟩ <;> omega

/-- C96: no list of intervals which hold the same addresses is shorter than the merged one. -/
theorem C96_fewest (env : ParseEnv) (p : Parser) (inp : Str) (hp : p.config.sort &&& SORT_MERGE ≠ 0) (l m : List Range)
    (hl : (Parser.parse env inp (unsortedOf p)).2 = .ok l) (hm : (Parser.parse env inp p).2 = .ok m)
    (k : List (Nat × Nat)) (hk : ∀ v, HeldBy k v ↔ Holding l v) : (intervals m).length ≤ k.length := by
  obtain ⟨a1, _, a3, a4⟩ := merged_intervals hp hl hm
  exact Components.fewest a1 a3 fun v => (a4 v).trans (hk v).symm

/-- C96: the order of the entries of a list, and how often they are written, have no effect on the merged list. -/
theorem C96_entries (env : ParseEnv) (p : Parser) (inp inp' : Str) (hl : ListMode p) (hp : p.config.sort &&& SORT_MERGE ≠ 0)
    (he : ∀ e, e ∈ pieces p inp ↔ e ∈ pieces p inp') (m m' : List Range) (hm : (Parser.parse env inp p).2 = .ok m)
    (hm' : (Parser.parse env inp' p).2 = .ok m') : intervals m = intervals m' := by
  obtain ⟨l, h1⟩ := unsorted_read hm
  obtain ⟨l', h2⟩ := unsorted_read hm'
  refine (C96_canonical env env p p inp inp' hp hp ⟨rfl, rfl⟩ l l' m m' h1 h2 hm hm').2 fun v => ?_
  have hlm : ListMode (unsortedOf p) := by rw [ListMode, unsortedOf_flags]; exact hl
  rw [parse_unsorted env _ _ hlm (unsortedOf_unsorted p), pieces_eq, pieces_unsorted] at h1 h2
  have e1 := seqEntries_mem env _ _ _ _ rfl h1 (unsortedOf p) rfl
  have e2 := seqEntries_mem env _ _ _ _ rfl h2 (unsortedOf p) rfl
  have : ∀ r, r ∈ l ↔ r ∈ l' := by
    intro r
    rw [e1, e2]
    exact ⟨fun ⟨e, h3, h4⟩ => ⟨e, (he e).1 h3, h4⟩, fun ⟨e, h3, h4⟩ => ⟨e, (he e).2 h3, h4⟩⟩
  exact ⟨fun ⟨r, h3, h4⟩ => ⟨r, (this r).1 h3, h4⟩, fun ⟨r, h3, h4⟩ => ⟨r, (this r).2 h3, h4⟩⟩

/-- C96: without masks, merging never fails and the list matches the addresses it matches when it is not merged, namely those between
the bounds. -/
theorem C96_matches (env : ParseEnv) (p : Parser) (inp : Str) (hmask : p.config.flags .mask = false) (l : List Range)
    (hl : (Parser.parse env inp (unsortedOf p)).2 = .ok l) :
    ∃ m, (Parser.parse env inp p).2 = .ok m ∧ ∀ a : Addr, addressMatchRanges m a = addressMatchRanges l a
      ∧ ∃ b, addressMatchRanges m a = .ok b ∧ (b = true ↔ HeldBy (intervals m) (ip a.getIpv6.addr)) := by
  have hd := (parse_sort env inp p).2.2.2.2 l hl
  have hw : ∀ r ∈ l, Parser.Whole r := Parser.whole_parse (by rw [unsortedOf_flags]; exact hmask) hl
  obtain ⟨m, hm⟩ := C43_merge_succeeds_partial env inp p l hl fun r hr => by
    obtain ⟨h1, h2⟩ := hw r hr
    unfold MasksSuit
    omega
  have hwm : ∀ r ∈ m, Parser.Whole r := Parser.whole_parse hmask hm
  have key : (∀ r ∈ m, Defined r) ∧ ∀ v, Holding m v ↔ Holding l v := by
    by_cases hs : p.config.sort &&& SORT_MERGE = 0
    · obtain ⟨m', h1, h2, _⟩ := C43_sort_permutes env inp p hs l hl
      rw [h1] at hm
      cases hm
      exact ⟨fun r hr => hd.1 r (h2.mem_iff.1 hr), fun v => ⟨fun ⟨r, h3, h4⟩ => ⟨r, h2.mem_iff.1 h3, h4⟩,
        fun ⟨r, h3, h4⟩ => ⟨r, h2.mem_iff.2 h3, h4⟩⟩⟩
    · rcases C43_merge_partial env inp p hs l hl with h | ⟨m', h, h1, h2, _⟩
      · rw [h] at hm; cases hm
      · rw [h] at hm
        cases hm
        exact ⟨h1, h2⟩
  refine ⟨m, hm, fun a => ?_⟩
  obtain ⟨b, h1, h2⟩ := whole_matches key.1 hwm a
  obtain ⟨b', h3, h4⟩ := whole_matches hd.1 hw a
  refine ⟨?_, b, h1, h2.trans (held_intervals _ _).symm⟩
  rw [h1, h3]
  congr 1
  rw [Bool.eq_iff_iff, h2, h4, key.2]

/-! ### Examples -/

/-- Twice the same addresses: the lists "1.2.3.4,1.2.3.5-1.2.3.9" and "1.2.3.7-1.2.3.9,1.2.3.4-1.2.3.6,1.2.3.4". -/
example : (sortParser SORT_MERGE).config.sort &&& SORT_MERGE ≠ 0 ∧ (sortParser SORT_MERGE).config.flags .mask = false
    ∧ resultBounds (Parser.parse sampleEnv "1.2.3.4,1.2.3.5-1.2.3.9".toList (unsortedOf (sortParser SORT_MERGE))).2
      = some [(0xFFFF01020304, 0xFFFF01020304), (0xFFFF01020305, 0xFFFF01020309)]
    ∧ resultBounds (Parser.parse sampleEnv "1.2.3.4,1.2.3.5-1.2.3.9".toList (sortParser SORT_MERGE)).2
      = some [(0xFFFF01020304, 0xFFFF01020309)]
    ∧ resultBounds (Parser.parse sampleEnv "1.2.3.7-1.2.3.9,1.2.3.4-1.2.3.6,1.2.3.4".toList (sortParser SORT_MERGE)).2
      = some [(0xFFFF01020304, 0xFFFF01020309)] := by
  refine ⟨?_, ?_, ?_, ?_, ?_⟩ <;> decide +kernel

/-- Two lists with the same entries. -/
example : ListMode (sortParser SORT_MERGE)
    ∧ (∀ e, e ∈ pieces (sortParser SORT_MERGE) "::1,::2".toList ↔ e ∈ pieces (sortParser SORT_MERGE) "::2,::1,::2".toList) := by
  refine ⟨.inl (by decide), fun e => ?_⟩
  have hs : separates (sortParser SORT_MERGE) = (· == ',') := by
    funext x
    rw [separates, show (sortParser SORT_MERGE).config.flags .multiAddressesCommas = true by decide,
      show (sortParser SORT_MERGE).config.flags .multiAddressesSpaces = false by decide,
      show (sortParser SORT_MERGE).config.flags .multiAddressesNewlines = false by decide]
    simp [Bool.beq_eq_decide_eq]
  have hi : beforeComment (sortParser SORT_MERGE) = fun e => e.takeWhile fun _ => true := by
    funext e
    rw [beforeComment]
    congr 1
  rw [pieces, pieces, if_neg (fun h => absurd h.1 (by decide)), if_neg (fun h => absurd h.1 (by decide)), hs, hi,
    show ((fields (· == ',') "::1,::2".toList).map fun e => e.takeWhile fun _ => true).filter (· ≠ []) = ["::1".toList, "::2".toList] by decide,
    show ((fields (· == ',') "::2,::1,::2".toList).map fun e => e.takeWhile fun _ => true).filter (· ≠ [])
      = ["::2".toList, "::1".toList, "::2".toList] by decide]
  simp only [List.mem_cons, List.not_mem_nil, or_false]
  tauto

end Verif
