import Verif.Props.Spelling

/-!
# Property C141: adding entries to an access list forbids no address
-/

namespace Verif

open Spec

/-- Every entry of the first text is one of the second text. -/
def Adds (p : Parser) (inp inp' : Str) (Q Q' : List AccessItem) : Prop := WritesItems p inp Q ∧ WritesItems p inp' Q' ∧ ∀ q ∈ Q, q ∈ Q'

/-- Every address which matches the first ranges matches the second ones. -/
def MatchesMore (l l' : List Range) : Prop := ∀ a : Addr, addressMatchRanges l a = .ok true → addressMatchRanges l' a = .ok true

/-- The claim: a list with more entries is read, and matches at least the same addresses. -/
def C141_claim : Prop := ∀ (env env' : ParseEnv) (p : Parser) (inp inp' : Str) (Q Q' : List AccessItem) (l : List Range), ReadsAccess p →
  Adds p inp inp' Q Q' → (Parser.parse env inp p).2 = .ok l → ∃ l', (Parser.parse env' inp' p).2 = .ok l' ∧ MatchesMore l l'

/-- The claim is true of the lists which are not merged. -/
theorem C141_unmerged (env env' : ParseEnv) (p : Parser) (inp inp' : Str) (Q Q' : List AccessItem) (l : List Range) (h : ReadsAccess p)
    (hm : p.config.sort &&& SORT_MERGE = 0) (hQ : Adds p inp inp' Q Q') (hl : (Parser.parse env inp p).2 = .ok l) :
    ∃ l', (Parser.parse env' inp' p).2 = .ok l' ∧ MatchesMore l l' := by
  obtain ⟨l₁, h1, _, _, h2⟩ := items_unmerged env h hm hQ.1
  obtain ⟨l', g1, _, _, g2⟩ := items_unmerged env' h hm hQ.2.1
  rw [hl] at h1
  injection h1 with h1
  subst h1
  refine ⟨l', g1, fun a ha => ?_⟩
  obtain ⟨b, j1, j2⟩ := h2 a
  obtain ⟨b', k1, k2⟩ := g2 a
  rw [ha] at j1
  injection j1 with j1
  obtain ⟨q, hq, hx⟩ := j2.1 j1.symm
  rw [k1, k2.2 ⟨q, hQ.2.2 q hq, hx⟩]

/-- The network of `q` is lost: it was alone, and one of the entries of the longer list overlaps or touches the address written, and is not this same address. -/
def Loses (Q Q' : List AccessItem) (q : AccessItem) : Prop :=
  Alone Q q ∧ ∃ s ∈ Q', meetOrTouch s.lo s.hi q.lo q.hi ∧ ¬ (s.span = false ∧ s.lo = q.lo)

theorem leftOver_more {Q Q' : List AccessItem} (h : ∀ q ∈ Q, q ∈ Q') {x : Nat} (hx : LeftOver Q x) :
    LeftOver Q' x ∨ ∃ q ∈ Q, Loses Q Q' q ∧ InNetwork x q.lo q.bits := by
  obtain ⟨q, hq, hb | ⟨h1, h2⟩⟩ := hx
  · exact .inl ⟨q, h q hq, .inl hb⟩
  · by_cases hal : Alone Q' q
    · exact .inl ⟨q, h q hq, .inr ⟨hal, h2⟩⟩
    · refine .inr ⟨q, hq, ⟨h1, Classical.byContradiction fun hno => hal ⟨h1.1, fun s hs hm => Classical.byContradiction fun hns => ?_⟩⟩, h2⟩
      exact hno ⟨s, hs, hm, hns⟩

/-- When lists are merged: the list with more entries throws exactly when its entries cannot be joined; otherwise exactly these addresses no longer match: those of a network
which is lost, unless the longer list has them for another reason. -/
theorem C141_exact (env env' : ParseEnv) (p : Parser) (inp inp' : Str) (Q Q' : List AccessItem) (l : List Range) (h : ReadsAccess p)
    (hm : p.config.sort &&& SORT_MERGE ≠ 0) (hQ : Adds p inp inp' Q Q') (hl : (Parser.parse env inp p).2 = .ok l) :
    ((Parser.parse env' inp' p).2 = .throw .outOfRange ↔ ¬ Joinable Q')
      ∧ (Joinable Q' → ∃ l', (Parser.parse env' inp' p).2 = .ok l'
          ∧ ∀ a : Addr, (addressMatchRanges l a = .ok true ∧ addressMatchRanges l' a = .ok false)
            ↔ (∃ q ∈ Q, Loses Q Q' q ∧ InNetwork (ip a.getIpv6.addr) q.lo q.bits) ∧ ¬ LeftOver Q' (ip a.getIpv6.addr)) := by
  obtain ⟨_, _, h3, h4⟩ := C110_exact env p inp Q h hm hQ.1
  obtain ⟨_, _, g3, g4⟩ := C110_exact env' p inp' Q' h hm hQ.2.1
  refine ⟨g3, fun hj => ?_⟩
  obtain ⟨l', k1, k2⟩ := g4 hj
  have hjQ : Joinable Q := Classical.byContradiction fun hn => by
    rw [hl] at h3
    exact nomatch h3.2 hn
  obtain ⟨l₁, e1, e2⟩ := h4 hjQ
  rw [hl] at e1
  injection e1 with e1
  subst e1
  refine ⟨l', k1, fun a => ?_⟩
  obtain ⟨b, j1, j2⟩ := e2 a
  obtain ⟨b', j3, j4⟩ := k2 a
  rw [j1, j3]
  constructor
  · rintro ⟨hb, hb'⟩
    injection hb with hb
    injection hb' with hb'
    have hno : ¬ LeftOver Q' (ip a.getIpv6.addr) := fun hx => by
      have := j4.2 hx
      rw [hb'] at this
      exact nomatch this
    exact ⟨(leftOver_more hQ.2.2 (j2.1 hb)).resolve_left hno, hno⟩
  · rintro ⟨⟨q, hq, hlo, hx⟩, hno⟩
    rw [j2.2 ⟨q, hq, .inr ⟨hlo.1, hx⟩⟩]
    cases b' with
    | false => exact ⟨rfl, rfl⟩
    | true => exact absurd (j4.1 rfl) hno

/-- The claim for merged lists: when masks have at least 96 bits and no entry of the longer list overlaps or touches the address of a network of the shorter one, other than
the same address. -/
theorem C141_partial (env env' : ParseEnv) (p : Parser) (inp inp' : Str) (Q Q' : List AccessItem) (l : List Range) (h : ReadsAccess p)
    (hQ : Adds p inp inp' Q Q') (hl : (Parser.parse env inp p).2 = .ok l) (hbits : ∀ q ∈ Q', 96 ≤ q.bits)
    (hapart : ∀ q ∈ Q, q.span = false → q.bits < 128 → ∀ s ∈ Q', meetOrTouch s.lo s.hi q.lo q.hi → s.span = false ∧ s.lo = q.lo) :
    ∃ l', (Parser.parse env' inp' p).2 = .ok l' ∧ MatchesMore l l' := by
  by_cases hm : p.config.sort &&& SORT_MERGE = 0
  · exact C141_unmerged env env' p inp inp' Q Q' l h hm hQ hl
  · obtain ⟨_, h2⟩ := C141_exact env env' p inp inp' Q Q' l h hm hQ hl
    obtain ⟨l', k1, k2⟩ := h2 (List.pairwise_of_forall_mem_list fun q hq s hs _ _ _ _ => ⟨hbits q hq, hbits s hs⟩)
    obtain ⟨_, _, g3, g4⟩ := C110_exact env' p inp' Q' h hm hQ.2.1
    refine ⟨l', k1, fun a ha => ?_⟩
    have hj : Joinable Q' := List.pairwise_of_forall_mem_list fun q hq s hs _ _ _ _ => ⟨hbits q hq, hbits s hs⟩
    obtain ⟨l₁, e1, e2⟩ := g4 hj
    rw [k1] at e1
    injection e1 with e1
    subst e1
    obtain ⟨b, j1, j2⟩ := e2 a
    cases b with
    | true => exact j1
    | false =>
      obtain ⟨⟨q, hq, ⟨hal, s, hs, hmt, hns⟩, hin⟩, hno⟩ := (k2 a).1 ⟨ha, j1⟩
      by_cases hb : q.bits < 128
      · exact absurd (hapart q hq hal.1 hb s hs hmt) hns
      · refine absurd ⟨q, hQ.2.2 q hq, .inl ?_⟩ hno
        have ho := (items_order hQ.1 q hq).2.1 hal.1
        have h0 : 128 - q.bits = 0 := by omega
        rw [InNetwork, h0] at hin
        simp only [Nat.pow_zero, Nat.div_one] at hin
        rw [hin]
        exact ⟨Nat.le_refl _, Nat.le_of_eq ho⟩

theorem touchingShort : WritesItems mergeRangeParser "10.0.1.0/24".toList [⟨0xFFFF0A000100, 0xFFFF0A000100, 120, false⟩] := by
  have hf : fields (separates mergeRangeParser) "10.0.1.0/24".toList = ["10.0.1.0/24".toList] := by decide +kernel
  unfold WritesItems
  rw [hf]
  exact .item (trims_self (by decide) (by decide)) (.network (.v4 (v := 0x0A000100) (s := "24".toList) (by decide) (by decide) (by decide) (by decide))) .nil

theorem touchingLong : WritesItems mergeRangeParser "10.0.1.0/24,10.0.0.9-10.0.0.255".toList
    [⟨0xFFFF0A000100, 0xFFFF0A000100, 120, false⟩, ⟨0xFFFF0A000009, 0xFFFF0A0000FF, 128, true⟩] := by
  have hf : fields (separates mergeRangeParser) "10.0.1.0/24,10.0.0.9-10.0.0.255".toList = ["10.0.1.0/24".toList, "10.0.0.9-10.0.0.255".toList] := by
    decide +kernel
  unfold WritesItems
  rw [hf]
  refine .item (trims_self (by decide) (by decide)) (.network ?_) (.item (trims_self (by decide) (by decide)) (.span (.bare4 (by decide)) ?_ (by decide)) .nil)
  · exact .v4 (v := 0x0A000100) (s := "24".toList) (by decide) (by decide) (by decide) (by decide)
  · exact .both (addressOf_dotted (v := 0x0A000009) (by decide)) (addressOf_dotted (v := 0x0A0000FF) (by decide))

theorem touchingAdds : Adds mergeRangeParser "10.0.1.0/24".toList "10.0.1.0/24,10.0.0.9-10.0.0.255".toList
    [⟨0xFFFF0A000100, 0xFFFF0A000100, 120, false⟩] [⟨0xFFFF0A000100, 0xFFFF0A000100, 120, false⟩, ⟨0xFFFF0A000009, 0xFFFF0A0000FF, 128, true⟩] :=
  ⟨touchingShort, touchingLong, fun q hq => by
    rw [List.mem_singleton] at hq
    subst hq
    exact List.mem_cons_self⟩

/-- With "10.0.1.0/24" alone 10.0.1.5 matches; when "10.0.0.9-10.0.0.255" is allowed as well, it does not. -/
theorem C141_claim_fails : ¬ C141_claim := by
  intro hc
  have hx : ip (sampleV4 10 0 1 5).getIpv6.addr = 0xFFFF0A000105 := by decide +kernel
  obtain ⟨_, _, _, h⟩ := C110_exact sampleEnv mergeRangeParser _ _ mergeRangeParser_reads (by decide) touchingShort
  obtain ⟨l, h1, h2⟩ := h (List.pairwise_of_forall_mem_list fun q hq s hs _ _ _ _ => by
    rw [List.mem_singleton] at hq hs
    subst hq hs
    decide)
  obtain ⟨l', k1, k2⟩ := hc sampleEnv sampleEnv mergeRangeParser _ _ _ _ l mergeRangeParser_reads touchingAdds h1
  obtain ⟨l'', g1, _, g2⟩ := C110_touching
  rw [k1] at g1
  injection g1 with g1
  subst g1
  obtain ⟨b, j1, j2⟩ := h2 (sampleV4 10 0 1 5)
  have hal : Alone [(⟨0xFFFF0A000100, 0xFFFF0A000100, 120, false⟩ : AccessItem)] ⟨0xFFFF0A000100, 0xFFFF0A000100, 120, false⟩ := by
    refine ⟨rfl, fun s hs _ => ?_⟩
    rw [List.mem_singleton] at hs
    subst hs
    exact ⟨rfl, rfl⟩
  have hb : b = true := j2.2 ⟨_, List.mem_cons_self, .inr ⟨hal, by rw [hx]; simp [InNetwork]⟩⟩
  subst hb
  have := k2 (sampleV4 10 0 1 5) j1
  rw [g2] at this
  exact nomatch this

/-- The other way round nothing is lost: the range alone, then with the network. -/
example (l : List Range) (hl : (Parser.parse sampleEnv "10.0.0.9-10.0.0.255".toList mergeRangeParser).2 = .ok l) :
    ∃ l', (Parser.parse sampleEnv "10.0.1.0/24,10.0.0.9-10.0.0.255".toList mergeRangeParser).2 = .ok l' ∧ MatchesMore l l' := by
  have hf : fields (separates mergeRangeParser) "10.0.0.9-10.0.0.255".toList = ["10.0.0.9-10.0.0.255".toList] := by decide +kernel
  refine C141_partial sampleEnv sampleEnv mergeRangeParser _ _ [⟨0xFFFF0A000009, 0xFFFF0A0000FF, 128, true⟩]
    [⟨0xFFFF0A000100, 0xFFFF0A000100, 120, false⟩, ⟨0xFFFF0A000009, 0xFFFF0A0000FF, 128, true⟩] l mergeRangeParser_reads ⟨?_, touchingLong, ?_⟩ hl ?_ ?_
  · unfold WritesItems
    rw [hf]
    refine .item (trims_self (by decide) (by decide)) (.span (.bare4 (by decide)) ?_ (by decide)) .nil
    exact .both (addressOf_dotted (v := 0x0A000009) (by decide)) (addressOf_dotted (v := 0x0A0000FF) (by decide))
  · intro q hq
    exact List.mem_cons_of_mem _ hq
  · intro q hq
    simp only [List.mem_cons, List.not_mem_nil, or_false] at hq
    rcases hq with rfl | rfl <;> decide
  · intro q hq hs
    rw [List.mem_singleton] at hq
    subst hq
    exact nomatch hs

end Verif
