import Verif.Props.AccessMergeText

/-!
# Property C140: how the entries of an access list are spelled, and in which order, does not matter
-/

namespace Verif

open Spec

theorem item_listed {t : Str} {q : AccessItem} (h : ItemOf t q) : ∃ S, Listed t S ∧ ∀ x, S x ↔ InItem x q := by
  have h128 : ∀ x n : Nat, x = n ↔ InNetwork x n 128 := fun x n => by simp [InNetwork]
  cases h with
  | network h => exact ⟨_, .network h, fun x => by simp [InItem]⟩
  | start he h => exact ⟨_, .range he h, fun x => by simpa [InItem, InBounds] using h128 x _⟩
  | stop he h => exact ⟨_, .range he h, fun x => by simpa [InItem, InBounds] using h128 x _⟩
  | span he h hle => exact ⟨_, .range he h, fun x => by simp [InItem, InBounds, between]⟩

theorem wrongWay_listed {t : Str} (h : WrongWay t) : ∃ S, Listed t S ∧ ∀ x, ¬ S x := by
  obtain ⟨u, lo, hi, he, hr, n, m, rfl, rfl, hlt⟩ := h
  exact ⟨_, .range he hr, fun x hx => by have : n ≤ x ∧ x ≤ m := hx; omega⟩

theorem itemsOf_listed {d : Prop} {es : List Str} {Q : List AccessItem} (h : ItemsOf d es Q) :
    (∀ e ∈ es, ∃ t S, Trims e t ∧ Listed t S)
      ∧ ∀ x, x < 2 ^ 128 → ((∃ e ∈ es, ∃ t S, Trims e t ∧ Listed t S ∧ S x) ↔ ∃ q ∈ Q, InItem x q) := by
  induction h with
  | nil => exact ⟨(fun e he => nomatch he), fun x _ => ⟨fun ⟨e, he, _⟩ => (nomatch he), fun ⟨q, hq, _⟩ => nomatch hq⟩⟩
  | @item e t q es Q ht hq _ ih =>
    obtain ⟨S, hS, hm⟩ := item_listed hq
    refine ⟨fun e' he' => ?_, fun x hx => ?_⟩
    · rcases List.mem_cons.1 he' with rfl | he'
      · exact ⟨t, S, ht, hS⟩
      · exact ih.1 e' he'
    · constructor
      · rintro ⟨e', he', t', S', h1, h2, h3⟩
        rcases List.mem_cons.1 he' with rfl | he'
        · have : t' = t := (trims_eq h1).symm.trans (trims_eq ht)
          subst this
          exact ⟨q, List.mem_cons_self, (hm x).1 ((C86_unambiguous t' S' S h2 hS x hx).1 h3)⟩
        · obtain ⟨q', h4, h5⟩ := (ih.2 x hx).1 ⟨e', he', t', S', h1, h2, h3⟩
          exact ⟨q', List.mem_cons_of_mem _ h4, h5⟩
      · rintro ⟨q', hq', h3⟩
        rcases List.mem_cons.1 hq' with rfl | hq'
        · exact ⟨e, List.mem_cons_self, t, S, ht, hS, (hm x).2 h3⟩
        · obtain ⟨e', h4, h5⟩ := (ih.2 x hx).2 ⟨q', hq', h3⟩
          exact ⟨e', List.mem_cons_of_mem _ h4, h5⟩
  | @drop e t es Q hd ht hq _ ih =>
    obtain ⟨S, hS, hm⟩ := wrongWay_listed hq
    refine ⟨fun e' he' => ?_, fun x hx => ?_⟩
    · rcases List.mem_cons.1 he' with rfl | he'
      · exact ⟨t, S, ht, hS⟩
      · exact ih.1 e' he'
    · rw [← ih.2 x hx]
      constructor
      · rintro ⟨e', he', t', S', h1, h2, h3⟩
        rcases List.mem_cons.1 he' with rfl | he'
        · have : t' = t := (trims_eq h1).symm.trans (trims_eq ht)
          subst this
          exact (hm x ((C86_unambiguous t' S' S h2 hS x hx).1 h3)).elim
        · exact ⟨e', he', t', S', h1, h2, h3⟩
      · rintro ⟨e', he', h⟩
        exact ⟨e', List.mem_cons_of_mem _ he', h⟩

/-- What a list which is not merged matches, from the items it writes. -/
theorem items_unmerged (env : ParseEnv) {p : Parser} {inp : Str} {Q : List AccessItem} (h : ReadsAccess p)
    (hm : p.config.sort &&& SORT_MERGE = 0) (hq : WritesItems p inp Q) :
    ∃ l, (Parser.parse env inp p).2 = .ok l ∧ (Parser.parse env inp p).1.getErrorCount = p.getErrorCount
      ∧ (Parser.parse env inp p).1.errorMessages = p.errorMessages
      ∧ ∀ a : Addr, ∃ b, addressMatchRanges l a = .ok b ∧ (b = true ↔ ∃ q ∈ Q, InItem (ip a.getIpv6.addr) q) := by
  obtain ⟨g1, g2⟩ := itemsOf_listed hq
  obtain ⟨l, h1, h2, h3, h4⟩ := C86_list env p inp h hm fun e he hne => g1 e (List.mem_filter.2 ⟨he, by simp [hne]⟩)
  refine ⟨l, h1, h2, h3, fun a => ?_⟩
  obtain ⟨b, j1, j2⟩ := h4 a
  refine ⟨b, j1, j2.trans ?_⟩
  rw [← g2 _ (ip_lt _)]
  constructor
  · rintro ⟨e, he, t, S, k1, k2, k3⟩
    have hne : e ≠ [] := by
      rintro rfl
      exact listed_ne k2 (trims_eq k1).symm
    exact ⟨e, List.mem_filter.2 ⟨he, by simp [hne]⟩, t, S, k1, k2, k3⟩
  · rintro ⟨e, he, h⟩
    exact ⟨e, (List.mem_filter.1 he).1, h⟩

/-- Either both calls of `parse()` throw the same exception, or both return ranges, and `address_match_ranges()` has the same answers for both. -/
def SameAnswers (x y : Res (List Range)) : Prop :=
  (x = .throw .outOfRange ∧ y = .throw .outOfRange)
    ∨ ∃ l l', x = .ok l ∧ y = .ok l' ∧ ∀ a : Addr, ∃ b, addressMatchRanges l a = .ok b ∧ addressMatchRanges l' a = .ok b

theorem joinable_perm {Q Q' : List AccessItem} (h : Q.Perm Q') (hj : Joinable Q) : Joinable Q' := by
  have hstart : ∀ a v, StartOf Q' a v → StartOf Q a v := by
    intro a v ⟨h1, h2, h3⟩
    refine ⟨h1, fun w hw => ?_, fun b hb ⟨q, hq, hv⟩ => h3 b hb ⟨q, h.mem_iff.1 hq, hv⟩⟩
    obtain ⟨q, hq, hv⟩ := h2 w hw
    exact ⟨q, h.mem_iff.2 hq, hv⟩
  have := (h.pairwise_iff (R := fun q s : AccessItem => ∀ a, isV4 a → StartOf Q a q.lo → StartOf Q a s.lo → 96 ≤ q.bits ∧ 96 ≤ s.bits)
    (fun {x y} hxy a h4 h1 h2 => (hxy a h4 h2 h1).symm)).1 hj
  exact this.imp fun {x y} hxy a h4 h1 h2 => hxy a h4 (hstart _ _ h1) (hstart _ _ h2)

theorem leftOver_perm {Q Q' : List AccessItem} (h : Q.Perm Q') {x : Nat} (hx : LeftOver Q x) : LeftOver Q' x := by
  obtain ⟨q, hq, hb | ⟨⟨h1, h2⟩, h3⟩⟩ := hx
  · exact ⟨q, h.mem_iff.1 hq, .inl hb⟩
  · exact ⟨q, h.mem_iff.1 hq, .inr ⟨⟨h1, fun s hs => h2 s (h.mem_iff.2 hs)⟩, h3⟩⟩

/-- Two texts which write the same networks and ranges, one by one and in any order, are decided alike, merged or not, whatever the network is like. Nothing is complained
about. -/
theorem C140_spelling (env env' : ParseEnv) (p : Parser) (inp inp' : Str) (Q Q' : List AccessItem) (h : ReadsAccess p)
    (hq : WritesItems p inp Q) (hq' : WritesItems p inp' Q') (hQ : Q.Perm Q') :
    SameAnswers (Parser.parse env inp p).2 (Parser.parse env' inp' p).2
      ∧ (Parser.parse env inp p).1.errorMessages = p.errorMessages ∧ (Parser.parse env' inp' p).1.errorMessages = p.errorMessages := by
  have key : ∀ {l l' : List Range} {P P' : Addr → Prop}, (∀ a, P a ↔ P' a) → (∀ a : Addr, ∃ b, addressMatchRanges l a = .ok b ∧ (b = true ↔ P a)) →
      (∀ a : Addr, ∃ b, addressMatchRanges l' a = .ok b ∧ (b = true ↔ P' a)) →
      ∀ a : Addr, ∃ b, addressMatchRanges l a = .ok b ∧ addressMatchRanges l' a = .ok b := by
    intro l l' P P' hP h1 h2 a
    obtain ⟨b, j1, j2⟩ := h1 a
    obtain ⟨b', j3, j4⟩ := h2 a
    have : b = b' := by
      rw [Bool.eq_iff_iff, j2, j4, hP]
    subst this
    exact ⟨b, j1, j3⟩
  by_cases hm : p.config.sort &&& SORT_MERGE = 0
  · obtain ⟨l, h1, _, h2, h3⟩ := items_unmerged env h hm hq
    obtain ⟨l', g1, _, g2, g3⟩ := items_unmerged env' h hm hq'
    exact ⟨.inr ⟨l, l', h1, g1, key (fun a => ⟨fun ⟨q, hq, hx⟩ => ⟨q, hQ.mem_iff.1 hq, hx⟩, fun ⟨q, hq, hx⟩ => ⟨q, hQ.mem_iff.2 hq, hx⟩⟩) h3 g3⟩, h2, g2⟩
  · obtain ⟨_, h2, h3, h4⟩ := C110_exact env p inp Q h hm hq
    obtain ⟨_, g2, g3, g4⟩ := C110_exact env' p inp' Q' h hm hq'
    refine ⟨?_, h2, g2⟩
    by_cases hj : Joinable Q
    · obtain ⟨l, j1, j2⟩ := h4 hj
      obtain ⟨l', k1, k2⟩ := g4 (joinable_perm hQ hj)
      exact .inr ⟨l, l', j1, k1, key (fun a => ⟨leftOver_perm hQ, leftOver_perm hQ.symm⟩) j2 k2⟩
    · exact .inl ⟨h3.2 hj, g3.2 fun hj' => hj (joinable_perm hQ.symm hj')⟩

/-- Without merging, an entry written twice is the same as once. -/
theorem C140_repeats (env env' : ParseEnv) (p : Parser) (inp inp' : Str) (Q Q' : List AccessItem) (h : ReadsAccess p)
    (hm : p.config.sort &&& SORT_MERGE = 0) (hq : WritesItems p inp Q) (hq' : WritesItems p inp' Q') (hQ : ∀ q, q ∈ Q ↔ q ∈ Q') :
    SameAnswers (Parser.parse env inp p).2 (Parser.parse env' inp' p).2 := by
  obtain ⟨l, h1, _, _, h3⟩ := items_unmerged env h hm hq
  obtain ⟨l', g1, _, _, g3⟩ := items_unmerged env' h hm hq'
  refine .inr ⟨l, l', h1, g1, fun a => ?_⟩
  obtain ⟨b, j1, j2⟩ := h3 a
  obtain ⟨b', j3, j4⟩ := g3 a
  have : b = b' := by
    rw [Bool.eq_iff_iff, j2, j4]
    exact ⟨fun ⟨q, hq, hx⟩ => ⟨q, (hQ q).1 hq, hx⟩, fun ⟨q, hq, hx⟩ => ⟨q, (hQ q).2 hq, hx⟩⟩
  subst this
  exact ⟨b, j1, j3⟩

/-- The spellings of an IPv4 network with `k` bits: dotted decimal with `k`, or any text of the mapped address, in brackets or not, with `96 + k`; the numbers of bits may
have zeros in front. -/
theorem C140_mapped (v : Nat) (s s' u : Str) (hv : v < 2 ^ 32) (hs : s ≠ [] ∧ ∀ c ∈ s, c.isDigit = true) (hs' : s' ≠ [] ∧ ∀ c ∈ s', c.isDigit = true)
    (hk : Nat.ofDigitChars 10 s 0 ≤ 32) (he : Nat.ofDigitChars 10 s' 0 = 96 + Nat.ofDigitChars 10 s 0)
    (hu : IPv6Text u (hextets (0xFFFF00000000 + v))) :
    ∃ q, ItemOf (dotted v ++ '/' :: s) q ∧ ItemOf (u ++ '/' :: s') q ∧ ItemOf (('[' :: u ++ [']']) ++ '/' :: s') q := by
  have hn : 0xFFFF00000000 + v < 2 ^ 128 := by omega
  have hm : Nat.ofDigitChars 10 s' 0 ≤ 128 := by omega
  refine ⟨_, .network (.v4 hv hs.1 hs.2 hk), .network ?_, .network ?_⟩
  · rw [← he]
    exact .v6 hn hu hs'.1 hs'.2 hm
  · rw [← he]
    exact .bracket hn hu hs'.1 hs'.2 hm

theorem mappedTen : IPv6Text "::FFFF:10.0.0.0".toList (hextets (0xFFFF00000000 + 0x0A000000)) :=
  .zip (p := []) (ps := []) (z := 5) (q := "FFFF:10.0.0.0".toList) (qs := [0xFFFF, 0x0A00, 0]) (.inl ⟨rfl, rfl⟩)
    (.inr (.cons (t := "FFFF".toList) (s := "10.0.0.0".toList) (ws := [0x0A00, 0])
      ⟨.snoc (t := "FFF".toList) (v := 0xFFF) (c := 'F') (d := 15) (.snoc (t := "FF".toList) (v := 0xFF) (c := 'F') (d := 15)
        (.snoc (t := "F".toList) (v := 0xF) (c := 'F') (d := 15) (.snoc (t := []) (v := 0) (c := 'F') (d := 15) .nil (.inr (by decide))) (.inr (by decide)))
        (.inr (by decide))) (.inr (by decide)), by decide, by decide⟩ (.dots (v := 0x0A000000) (by decide)))) (by decide) (by decide)

/-- Two texts of the same list: the other order, brackets, a space, the mapped address and zeros in front of the number of bits. -/
example : SameAnswers (Parser.parse sampleEnv "10.0.0.0/8,1.2.3.4-1.2.3.9".toList mergeRangeParser).2
    (Parser.parse serviceEnv " [1.2.3.4-1.2.3.9],::FFFF:10.0.0.0/0104".toList mergeRangeParser).2 := by
  have hf : fields (separates mergeRangeParser) "10.0.0.0/8,1.2.3.4-1.2.3.9".toList = ["10.0.0.0/8".toList, "1.2.3.4-1.2.3.9".toList] := by
    decide +kernel
  have hf' : fields (separates mergeRangeParser) " [1.2.3.4-1.2.3.9],::FFFF:10.0.0.0/0104".toList
      = [" [1.2.3.4-1.2.3.9]".toList, "::FFFF:10.0.0.0/0104".toList] := by
    decide +kernel
  have hr : WrittenRange "1.2.3.4-1.2.3.9".toList (some 0xFFFF01020304) (some 0xFFFF01020309) :=
    .both (addressOf_dotted (v := 0x01020304) (by decide)) (addressOf_dotted (v := 0x01020309) (by decide))
  refine (C140_spelling sampleEnv serviceEnv mergeRangeParser _ _
    [⟨0xFFFF0A000000, 0xFFFF0A000000, 104, false⟩, ⟨0xFFFF01020304, 0xFFFF01020309, 128, true⟩]
    [⟨0xFFFF01020304, 0xFFFF01020309, 128, true⟩, ⟨0xFFFF0A000000, 0xFFFF0A000000, 104, false⟩] mergeRangeParser_reads ?_ ?_ (.swap _ _ _)).1
  · unfold WritesItems
    rw [hf]
    refine .item (trims_self (by decide) (by decide)) (.network ?_) (.item (trims_self (by decide) (by decide)) (.span (.bare4 (by decide)) hr (by decide)) .nil)
    exact .v4 (v := 0x0A000000) (s := "8".toList) (by decide) (by decide) (by decide) (by decide)
  · unfold WritesItems
    rw [hf']
    refine .item (t := "[1.2.3.4-1.2.3.9]".toList) ⟨" ".toList, [], rfl, by decide, by decide, by decide, by decide⟩
      (.span (.bracket (u := "1.2.3.4-1.2.3.9".toList)) hr (by decide)) (.item (trims_self (by decide) (by decide)) (.network ?_) .nil)
    exact .v6 (u := "::FFFF:10.0.0.0".toList) (s := "0104".toList) (n := 0xFFFF0A000000) (by decide) mappedTen (by decide) (by decide) (by decide)

/-- A user who only puts `::ffff:` in front of an IPv4 network writes another one: the bits are counted from the start of the IPv6 address. -/
theorem C140_prefix_alone : ∃ l l', (Parser.parse sampleEnv "10.0.0.0/8".toList plainParser).2 = .ok l
    ∧ (Parser.parse sampleEnv "::FFFF:10.0.0.0/8".toList plainParser).2 = .ok l'
    ∧ addressMatchRanges l (sampleV4 11 0 0 1) = .ok false ∧ addressMatchRanges l' (sampleV4 11 0 0 1) = .ok true := by
  have hf : fields (separates plainParser) "10.0.0.0/8".toList = ["10.0.0.0/8".toList] := by decide +kernel
  have hf' : fields (separates plainParser) "::FFFF:10.0.0.0/8".toList = ["::FFFF:10.0.0.0/8".toList] := by decide +kernel
  have hx : ip (sampleV4 11 0 0 1).getIpv6.addr = 0xFFFF0B000001 := by decide +kernel
  obtain ⟨l, h1, _, _, h2⟩ := items_unmerged (inp := "10.0.0.0/8".toList) (Q := [⟨0xFFFF0A000000, 0xFFFF0A000000, 104, false⟩]) sampleEnv plainParser_reads (by decide) (by
    unfold WritesItems
    rw [hf]
    exact .item (trims_self (by decide) (by decide))
      (.network (.v4 (v := 0x0A000000) (s := "8".toList) (by decide) (by decide) (by decide) (by decide))) .nil)
  obtain ⟨l', g1, _, _, g2⟩ := items_unmerged (inp := "::FFFF:10.0.0.0/8".toList) (Q := [⟨0xFFFF0A000000, 0xFFFF0A000000, 8, false⟩]) sampleEnv plainParser_reads (by decide) (by
    unfold WritesItems
    rw [hf']
    exact .item (trims_self (by decide) (by decide)) (.network (.v6 (u := "::FFFF:10.0.0.0".toList) (s := "8".toList) (n := 0xFFFF0A000000)
      (by decide) mappedTen (by decide) (by decide) (by decide))) .nil)
  refine ⟨l, l', h1, g1, ?_, ?_⟩
  · obtain ⟨b, j1, j2⟩ := h2 (sampleV4 11 0 0 1)
    cases b with
    | false => exact j1
    | true =>
      obtain ⟨q, hq, hin⟩ := j2.1 rfl
      rw [List.mem_singleton] at hq
      subst hq
      rw [hx] at hin
      exact absurd hin (by simp [InItem, InNetwork])
  · obtain ⟨b, j1, j2⟩ := g2 (sampleV4 11 0 0 1)
    rw [j1, j2.2 ⟨_, List.mem_cons_self, by rw [hx]; simp [InItem, InNetwork]⟩]

end Verif
