import Verif.Props.MergeEmpty

/-!
# Property C116: merging never adds an address
-/

namespace Verif

open Spec

/-- There is another range which starts with the same address. -/
def Twice (L : List Range) (r : Range) : Prop := 2 ≤ (L.filter fun s => decide (first s = first r)).length

/-- What a range which stands alone matches: what it matched before, and when its address is written twice, the network of this address with
its mask, wherever this mask was stored. -/
def MatchesAmid (L : List Range) (r : Range) (a : Addr) : Prop :=
  r.matchAddr a = .ok true ∨ (Twice L r ∧ ∃ k : Nat, r.lo.getMaskSize = (k : Int) ∧ InNetwork (ip a.getIpv6.addr) (first r) k)

/-- An address which is within the bounds of one of the ranges, or which matches one which stands alone and which is not hidden by the empty
range. -/
def KeptWhole (L : List Range) (e : Option Range) (a : Addr) : Prop :=
  ∃ r ∈ L, between (ip a.getIpv6.addr) (first r) (last r) ∨ (StandsAlone L r ∧ MatchesAmid L r a ∧ ¬ Hidden L e r)

theorem twice_perm {P Q : List Range} (h : P.Perm Q) (r : Range) : Twice P r ↔ Twice Q r := by
  rw [Twice, Twice, (h.filter _).length_eq]

theorem keptWhole_perm {P Q : List Range} (h : P.Perm Q) (e : Option Range) (a : Addr) : KeptWhole P e a ↔ KeptWhole Q e a := by
  simp only [KeptWhole, StandsAlone, Hidden, MatchesAmid, twice_perm h, h.mem_iff]

theorem keptWhole_append {P Q : List Range} {m : Nat} (hP : ∀ r ∈ P, first r ≤ last r ∧ last r < m)
    (hQ : ∀ r ∈ Q, first r ≤ last r ∧ m < first r) (h0 : ∃ q, q ∈ Q) (e : Option Range) (a : Addr) :
    KeptWhole (P ++ Q) e a ↔ KeptWhole P none a ∨ KeptWhole Q e a := by
  have s1 : ∀ r ∈ P, StandsAlone (P ++ Q) r ↔ StandsAlone P r := by
    intro r hr
    have h1 := hP r hr
    refine and_congr_right fun _ => ⟨fun h s hs => h s (List.mem_append.2 (.inl hs)), fun h s hs hm => ?_⟩
    rcases List.mem_append.1 hs with hs | hs
    · exact h s hs hm
    · have := hQ s hs
      unfold meetOrTouch at hm
      omega
  have s2 : ∀ r ∈ Q, StandsAlone (P ++ Q) r ↔ StandsAlone Q r := by
    intro r hr
    have h1 := hQ r hr
    refine and_congr_right fun _ => ⟨fun h s hs => h s (List.mem_append.2 (.inr hs)), fun h s hs hm => ?_⟩
    rcases List.mem_append.1 hs with hs | hs
    · have := hP s hs
      unfold meetOrTouch at hm
      omega
    · exact h s hs hm
  have t1 : ∀ r ∈ P, ¬ Hidden (P ++ Q) e r := by
    intro r hr ⟨h, _⟩
    obtain ⟨q, hq⟩ := h0
    have := h q (List.mem_append.2 (.inr hq))
    have := hP r hr
    have := hQ q hq
    omega
  have t0 : ∀ r, ¬ Hidden P none r := by
    rintro r ⟨_, x, hx, _⟩
    cases hx
  have t2 : ∀ r ∈ Q, Hidden (P ++ Q) e r ↔ Hidden Q e r := by
    intro r hr
    refine and_congr_left fun _ => ⟨fun h s hs => h s (List.mem_append.2 (.inr hs)), fun h s hs => ?_⟩
    rcases List.mem_append.1 hs with hs | hs
    · have := hP s hs
      have := hQ r hr
      omega
    · exact h s hs
  have w1 : ∀ r ∈ P, Twice (P ++ Q) r ↔ Twice P r := by
    intro r hr
    rw [Twice, Twice, List.filter_append, (List.filter_eq_nil_iff (l := Q)).2 (fun s hs => by
      have := hQ s hs
      have := hP r hr
      simp
      omega), List.append_nil]
  have w2 : ∀ r ∈ Q, Twice (P ++ Q) r ↔ Twice Q r := by
    intro r hr
    rw [Twice, Twice, List.filter_append, (List.filter_eq_nil_iff (l := P)).2 (fun s hs => by
      have := hP s hs
      have := hQ r hr
      simp
      omega), List.nil_append]
  constructor
  · rintro ⟨r, hr, h⟩
    rcases List.mem_append.1 hr with hr | hr
    · rw [s1 r hr, MatchesAmid, w1 r hr] at h
      exact .inl ⟨r, hr, h.imp id fun h => ⟨h.1, h.2.1, t0 r⟩⟩
    · rw [s2 r hr, t2 r hr, MatchesAmid, w2 r hr] at h
      exact .inr ⟨r, hr, h⟩
  · rintro (⟨r, hr, h⟩ | ⟨r, hr, h⟩)
    · rw [← s1 r hr, MatchesAmid, ← w1 r hr] at h
      exact ⟨r, List.mem_append.2 (.inl hr), h.imp id fun h => ⟨h.1, h.2.1, t1 r hr⟩⟩
    · rw [← s2 r hr, ← t2 r hr, MatchesAmid, ← w2 r hr] at h
      exact ⟨r, List.mem_append.2 (.inr hr), h⟩

/-- A range with a bound, whose last address has no mask. -/
structure Plain (r : Range) : Prop where
  defined : Defined r
  hi : r.hi.getMaskSize = 128

theorem plain_cases {r : Range} (h : Plain r) (ht : r.isRange = false) :
    (r.hasFrom = true ∧ r.hasTo = false) ∨ (r.hasFrom = false ∧ r.hasTo = true) := by
  rcases Bool.eq_false_or_eq_true r.hasFrom with hf | hf <;> rcases Bool.eq_false_or_eq_true r.hasTo with hto | hto
  · rw [(complete_isRange r).2 ⟨hf, hto⟩] at ht
    cases ht
  · exact .inl ⟨hf, hto⟩
  · exact .inr ⟨hf, hto⟩
  · rcases h.defined with h | h
    · rw [hf] at h; cases h
    · rw [hto] at h; cases h

theorem plain_last {r : Range} (h : Plain r) (ht : r.isRange = false) : last r = first r := by
  rcases plain_cases h ht with ⟨h1, h2⟩ | ⟨h1, h2⟩
  · rw [first, last, if_pos h1, if_neg (by rw [h2]; exact Bool.false_ne_true)]
  · rw [first, last, if_pos h2, if_neg (by rw [h1]; exact Bool.false_ne_true)]

theorem plain_self {r : Range} (h : Plain r) (ht : r.isRange = false) {a : Addr} (ha : ip a.getIpv6.addr = first r) :
    r.matchAddr a = .ok true := by
  rcases plain_cases h ht with ⟨h1, h2⟩ | ⟨h1, h2⟩
  · have he : r.matchAddr a = .ok (r.lo.matchAddr a) := by
      simp [Range.matchAddr, Range.isEmpty, Range.isRange, h1, h2]
    rw [first, if_pos h1, fromIp] at ha
    rw [he, (C11_match_bits r.lo a).2]
    intro i _ _
    rw [ha]
  · have he : r.matchAddr a = .ok (r.hi.matchAddr a) := by
      simp [Range.matchAddr, Range.isEmpty, Range.isRange, h1, h2]
    rw [first, if_neg (by rw [h1]; exact Bool.false_ne_true), toIp] at ha
    rw [he, (C11_match_bits r.hi a).2]
    intro i _ _
    rw [ha]

/-- With a first address only, a range matches the network of its mask. -/
theorem plain_network {r : Range} (hf : r.hasFrom = true) (hto : r.hasTo = false) (h0 : 0 ≤ r.lo.getMaskSize) :
    ∃ k : Nat, r.lo.getMaskSize = (k : Int) ∧ ∀ a : Addr, r.matchAddr a = .ok true ↔ InNetwork (ip a.getIpv6.addr) (first r) k := by
  rcases getMaskSize_cases r.lo with ⟨h, _⟩ | ⟨k, hk, h1, h2⟩
  · omega
  · refine ⟨k, h2, network_match ⟨hf, hto, ?_, hk, h1⟩⟩
    rw [first, if_pos hf]
    rfl

/-- With a last address only, it matches this address. -/
theorem plain_last_only {r : Range} (h : Plain r) (hf : r.hasFrom = false) (hto : r.hasTo = true) {a : Addr} (hm : r.matchAddr a = .ok true) :
    ip a.getIpv6.addr = first r := by
  have he : r.matchAddr a = r.swapFromTo.matchAddr a := by
    simp [Range.matchAddr, Range.isEmpty, Range.isRange, Range.swapFromTo, hf, hto]
  rw [he] at hm
  have hk : ip r.hi.getMask = prefixMask 128 := by
    rcases getMaskSize_cases r.hi with ⟨h', _⟩ | ⟨k, _, h1, h2⟩
    · have := h.hi
      omega
    · have : k = 128 := by have := h.hi; omega
      rw [this] at h1
      exact h1
  have hn := (network_match (r := r.swapFromTo) (n := first r) (k := 128) ⟨hto, hf, by
    rw [first, if_neg (by rw [hf]; exact Bool.false_ne_true)]
    rfl, by decide, hk⟩ a).1 hm
  unfold InNetwork at hn
  simpa using hn

/-- What the range built so far stands for. -/
structure CollectsWhole (cur : Range) (G : List Range) : Prop where
  gathers : Gathers cur G
  plain : Plain cur
  plains : ∀ g ∈ G, Plain g
  shape : G = [cur] ∨ (2 ≤ G.length ∧ (∀ g ∈ G, 0 ≤ g.lo.getMaskSize) ∧ cur.hasFrom = true
    ∧ ((cur.isRange = false ∧ ∀ g ∈ G, g.isRange = false) ∨ (cur.isRange = true ∧ (first cur < last cur ∨ ∃ g ∈ G, g.isRange = true))))

theorem hidden_none {L : List Range} (r : Range) : ¬ Hidden L none r := by
  rintro ⟨_, x, hx, _⟩
  cases hx

theorem CollectsWhole.match_iff {cur : Range} {G : List Range} (h : CollectsWhole cur G) (a : Addr) :
    cur.matchAddr a = .ok true ↔ KeptWhole G none a := by
  have hg := h.gathers
  rcases h.shape with rfl | ⟨htwo, hsz, hfrom, ⟨ht, hts⟩ | ⟨ht, hwhy⟩⟩
  · by_cases ht : cur.isRange = true
    · rw [match_complete ((complete_isRange cur).1 ht)]
      constructor
      · exact fun hb => ⟨cur, List.mem_singleton.2 rfl, .inl hb⟩
      · rintro ⟨r, hr, hb | ⟨hal, _⟩⟩
        · rw [List.mem_singleton] at hr
          rw [← hr]
          exact hb
        · rw [List.mem_singleton] at hr
          rw [hr] at hal
          exact absurd (hal.1.symm.trans ht) Bool.false_ne_true
    · have ht' : cur.isRange = false := Bool.not_eq_true _ ▸ ht
      constructor
      · refine fun hm => ⟨cur, List.mem_singleton.2 rfl, .inr ⟨⟨ht', fun s hs _ => ?_⟩, .inl hm, hidden_none _⟩⟩
        rw [List.mem_singleton] at hs
        rw [hs]
        exact ⟨ht', rfl⟩
      · rintro ⟨r, hr, hb | ⟨_, hm | ⟨hw, _⟩, _⟩⟩
        · rw [List.mem_singleton] at hr
          rw [hr] at hb
          refine plain_self h.plain ht' ?_
          have := plain_last h.plain ht'
          have := hb.1
          have := hb.2
          omega
        · rw [List.mem_singleton] at hr
          rw [← hr]
          exact hm
        · unfold Twice at hw
          have := List.length_filter_le (fun s => decide (first s = first r)) [cur]
          rw [List.length_singleton] at this
          omega
  · -- the same address again and again
    have hall : ∀ g ∈ G, first g = first cur ∧ last g = first cur := fun g hgG => by
      have h1 := hg.inside g hgG
      have h2 := plain_last h.plain ht
      have h3 := plain_last (h.plains g hgG) (hts g hgG)
      omega
    have hto : cur.hasTo = false := by
      rcases plain_cases h.plain ht with h' | h'
      · exact h'.2
      · rw [hfrom] at h'
        exact absurd h'.1 (by decide)
    obtain ⟨g0, hg0, hs0⟩ := hg.small
    obtain ⟨k, hk, hnet⟩ := plain_network hfrom hto (by rw [hs0]; exact hsz g0 hg0)
    have halone : ∀ g ∈ G, StandsAlone G g := fun g hgG =>
      ⟨hts g hgG, fun s hs _ => ⟨hts s hs, by rw [(hall s hs).1, (hall g hgG).1]⟩⟩
    have htw : ∀ g ∈ G, Twice G g := fun g hgG => by
      rw [Twice, List.filter_eq_self.2 (fun s hs => by simp [(hall s hs).1, (hall g hgG).1])]
      exact htwo
    have hmono : ∀ g ∈ G, ∀ k1 : Nat, g.lo.getMaskSize = (k1 : Int) → InNetwork (ip a.getIpv6.addr) (first g) k1 → cur.matchAddr a = .ok true := by
      intro g hgG k1 hk1 hm
      rw [(hall g hgG).1] at hm
      rw [hnet]
      refine inNetwork_mono ?_ hm
      have := hg.smallest g hgG
      omega
    constructor
    · intro hm
      rw [hnet] at hm
      refine ⟨g0, hg0, .inr ⟨halone g0 hg0, .inr ⟨htw g0 hg0, k, by omega, ?_⟩, hidden_none _⟩⟩
      rw [(hall g0 hg0).1]
      exact hm
    · rintro ⟨g, hgG, hb | ⟨_, hm | ⟨_, k1, hk1, hm⟩, _⟩⟩
      · refine plain_self h.plain ht ?_
        have := hall g hgG
        have := hb.1
        have := hb.2
        omega
      · rcases plain_cases (h.plains g hgG) (hts g hgG) with ⟨f1, f2⟩ | ⟨f1, f2⟩
        · obtain ⟨k1, hk1, hnet1⟩ := plain_network f1 f2 (hsz g hgG)
          exact hmono g hgG k1 hk1 ((hnet1 a).1 hm)
        · refine plain_self h.plain ht ?_
          rw [plain_last_only (h.plains g hgG) f1 f2 hm]
          exact (hall g hgG).1
      · exact hmono g hgG k1 hk1 hm
  · rw [match_complete ((complete_isRange cur).1 ht), ← hg.filled]
    constructor
    · rintro ⟨r, hr, hb⟩
      exact ⟨r, hr, .inl hb⟩
    · rintro ⟨r, hr, hb | ⟨hal, _⟩⟩
      · exact ⟨r, hr, hb⟩
      · exfalso
        have hin := hg.inside r hr
        have hrl := plain_last (h.plains r hr) hal.1
        have touches : ∀ v, between v (first cur) (last cur) → v ≤ first r + 1 → first r ≤ v + 1 → v = first r := by
          intro v hv h1 h2
          obtain ⟨s, hs, hsv⟩ := (hg.filled v).2 hv
          have h3 := hal.2 s hs (by
            have := hsv.1
            have := hsv.2
            unfold meetOrTouch
            omega)
          have := plain_last (h.plains s hs) h3.1
          have := hsv.1
          have := hsv.2
          omega
        by_cases hlt : first cur < last cur
        · by_cases hl : first r = last cur
          · have := touches (first r - 1) ⟨by omega, by omega⟩ (by omega) (by omega)
            omega
          · have := touches (first r + 1) ⟨by omega, by omega⟩ (by omega) (by omega)
            omega
        · obtain ⟨s, hs, hst⟩ := hwhy.resolve_left hlt
          have h1 := hg.inside s hs
          have h3 := hal.2 s hs (by unfold meetOrTouch; omega)
          exact absurd (h3.1.symm.trans hst) Bool.false_ne_true

theorem collectsWhole_one {r : Range} (hf : Plain r) (ho : first r ≤ last r) : CollectsWhole r [r] where
  gathers := gathers_one hf.defined ho hf.hi
  plain := hf
  plains g hg := by
    rw [List.mem_singleton] at hg
    rw [hg]
    exact hf
  shape := .inl rfl

/-- One step of the loop which merges. -/
theorem CollectsWhole.step {cur next u : Range} {G : List Range} (h : CollectsWhole cur G) (hf : Plain next) (hn : first next ≤ last next)
    (ho : first cur ≤ first next) (hmeet : first next ≤ last cur + 1)
    (hu : cur.unionIfPossible next = .ok u) : CollectsWhole u (G ++ [next]) ∧ first u = first cur := by
  have hg := h.gathers
  have hord := hg.order
  have hmeet' : (first cur ≤ last next ∧ first next ≤ last cur) ∨ last next + 1 = first cur ∨ first next = last cur + 1 := by omega
  obtain ⟨_, c2, c3⟩ := union_cases cur next hg.defined
  by_cases hacc : UnionMasksAccepted cur next
  · obtain ⟨u', e, hd, f, la, hmask, hcomp⟩ := c3 hmeet' hacc
    rw [hu] at e
    cases e
    have hfirst : first u = first cur := by rw [f]; omega
    have huhi : u.hi.getMaskSize = 128 := (Parser.hiWhole_union hg.hi hf.hi hu)
    have h96 := hacc.1.1
    rw [Nat.min_eq_left ho] at h96
    have hG : ∀ g ∈ G ++ [next], leastBits (first cur) ≤ g.lo.getMaskSize := by
      unfold leastBits
      intro g hgG
      rcases List.mem_append.1 hgG with hgG | hgG
      · have := hg.smallest g hgG
        omega
      · rw [List.mem_singleton] at hgG
        rw [hgG]
        omega
    have hgu : Gathers u (G ++ [next]) := by
      refine ⟨hd, by omega, huhi, ?_, ?_, ?_, ?_, .inr (by rw [hfirst]; exact hG)⟩
      · intro g hgG
        rw [hfirst, la]
        rcases List.mem_append.1 hgG with hgG | hgG
        · obtain ⟨j1, j2, j3⟩ := hg.inside g hgG
          omega
        · rw [List.mem_singleton] at hgG
          rw [hgG]
          omega
      · intro v
        rw [holding_append, hg.filled, hfirst, la]
        have : Holding [next] v ↔ between v (first next) (last next) := by simp [Holding]
        rw [this]
        unfold between
        omega
      · rw [hmask]
        obtain ⟨g, hgG, hsz⟩ := hg.small
        rcases Int.lt_or_le cur.lo.getMaskSize next.lo.getMaskSize with h' | h'
        · exact ⟨g, List.mem_append.2 (.inl hgG), by rw [← hsz]; omega⟩
        · exact ⟨next, List.mem_append.2 (.inr (List.mem_singleton.2 rfl)), by omega⟩
      · intro g hgG
        rw [hmask]
        rcases List.mem_append.1 hgG with hgG | hgG
        · have := hg.smallest g hgG
          omega
        · rw [List.mem_singleton] at hgG
          rw [hgG]
          omega
    have hfroms : ∀ g ∈ G ++ [next], Plain g := by
      intro g hgG
      rcases List.mem_append.1 hgG with hgG | hgG
      · exact h.plains g hgG
      · rw [List.mem_singleton] at hgG
        rw [hgG]
        exact hf
    have h0 : ∀ g ∈ G ++ [next], 0 ≤ g.lo.getMaskSize := by
      intro g hgG
      have := hG g hgG
      unfold leastBits at this
      split at this <;> omega
    have htwo : 2 ≤ (G ++ [next]).length := by
      obtain ⟨g, hgG, _⟩ := hg.small
      have := List.length_pos_of_mem hgG
      rw [List.length_append, List.length_singleton]
      omega
    -- whether one of the ranges has a last address
    have hany : cur.isRange = true → first cur < last cur ∨ ∃ g ∈ G, g.isRange = true := by
      intro ht
      rcases h.shape with rfl | ⟨_, _, _, ⟨ht', _⟩ | ⟨_, hw⟩⟩
      · exact .inr ⟨cur, List.mem_singleton.2 rfl, ht⟩
      · exact absurd (ht'.symm.trans ht) Bool.false_ne_true
      · exact hw
    by_cases hc : Complete cur ∨ Complete next
    · have hcu := (hcomp hc).1
      refine ⟨⟨hgu, ⟨hd, huhi⟩, hfroms, .inr ⟨htwo, h0, hcu.1, .inr ⟨(complete_isRange u).2 hcu, ?_⟩⟩⟩, hfirst⟩
      rcases hc with hc | hc
      · rcases hany ((complete_isRange cur).2 hc) with hlt | ⟨g, hgG, hgt⟩
        · left
          omega
        · exact .inr ⟨g, List.mem_append.2 (.inl hgG), hgt⟩
      · exact .inr ⟨next, List.mem_append.2 (.inr (List.mem_singleton.2 rfl)), (complete_isRange next).2 hc⟩
    · have ht1 : cur.isRange = false := Bool.not_eq_true _ ▸ fun ht => hc (.inl ((complete_isRange cur).1 ht))
      have ht2 : next.isRange = false := Bool.not_eq_true _ ▸ fun ht => hc (.inr ((complete_isRange next).1 ht))
      obtain ⟨j1, j2, _⟩ := union_two ht1 ht2 hg.defined hu hd
      refine ⟨⟨hgu, ⟨hd, huhi⟩, hfroms, .inr ⟨htwo, h0, j1, ?_⟩⟩, hfirst⟩
      by_cases ht : u.isRange = true
      · have := j2.1 ((complete_isRange u).1 ht).2
        have := hgu.order
        exact .inr ⟨ht, .inl (by omega)⟩
      · refine .inl ⟨Bool.not_eq_true _ ▸ ht, fun g hgG => ?_⟩
        rcases List.mem_append.1 hgG with hgG | hgG
        · rcases h.shape with rfl | ⟨_, _, _, ⟨_, hts⟩ | ⟨ht', _⟩⟩
          · rw [List.mem_singleton] at hgG
            rw [hgG]
            exact ht1
          · exact hts g hgG
          · exact absurd (ht1.symm.trans ht') Bool.false_ne_true
        · rw [List.mem_singleton] at hgG
          rw [hgG]
          exact ht2
  · rw [c2 hmeet' hacc] at hu
    cases hu

/-- An address which stands alone among the ranges gathered is all of them. -/
theorem CollectsWhole.alone {cur : Range} {G : List Range} (h : CollectsWhole cur G) {r : Range} (hr : r ∈ G) (ha : StandsAlone G r) :
    first cur = first r ∧ last cur = first r := by
  obtain ⟨i1, i2, i3⟩ := h.gathers.inside r hr
  have hl := plain_last (h.plains r hr) ha.1
  constructor
  · by_cases hlt : first cur < first r
    · obtain ⟨s, hs, hb⟩ := (h.gathers.filled (first r - 1)).2 (by unfold between; omega)
      unfold between at hb
      have := ha.2 s hs (by unfold meetOrTouch; omega)
      omega
    · omega
  · by_cases hlt : first r < last cur
    · obtain ⟨s, hs, hb⟩ := (h.gathers.filled (first r + 1)).2 (by unfold between; omega)
      unfold between at hb
      have h2 := ha.2 s hs (by unfold meetOrTouch; have := h.gathers.inside s hs; omega)
      have := plain_last (h.plains s hs) h2.1
      omega
    · omega

open Classical in
theorem CollectsWhole.amid {cur : Range} {G : List Range} (h : CollectsWhole cur G) (e : Option Range) (a : Addr)
    (he : ∀ x, e = some x → last x < first x) :
    KeptWhole G e a ↔ if (∃ x, e = some x ∧ Touched cur x) then between (ip a.getIpv6.addr) (first cur) (last cur) else cur.matchAddr a = .ok true := by
  have ho := h.gathers.order
  by_cases ht : ∃ x, e = some x ∧ Touched cur x
  · rw [if_pos ht]
    constructor
    · rintro ⟨r, hr, hb | ⟨ha, hx, hh⟩⟩
      · exact (h.gathers.filled _).1 ⟨r, hr, hb⟩
      · exfalso
        obtain ⟨a1, a2⟩ := h.alone hr ha
        refine hh ⟨fun s hs => ?_, ?_⟩
        · have := h.gathers.inside s hs
          omega
        · obtain ⟨x, hx, hto⟩ := ht
          have := he x hx
          refine ⟨x, hx, ?_⟩
          unfold Touched at hto
          unfold Beside
          omega
    · intro hb
      obtain ⟨r, hr, hb⟩ := (h.gathers.filled _).2 hb
      exact ⟨r, hr, .inl hb⟩
  · rw [if_neg ht, h.match_iff]
    constructor
    · rintro ⟨r, hr, hb | ⟨ha, hx, _⟩⟩
      · exact ⟨r, hr, .inl hb⟩
      · exact ⟨r, hr, .inr ⟨ha, hx, hidden_none _⟩⟩
    · rintro ⟨r, hr, hb | ⟨ha, hx, _⟩⟩
      · exact ⟨r, hr, .inl hb⟩
      · refine ⟨r, hr, .inr ⟨ha, hx, fun hh => ht ?_⟩⟩
        obtain ⟨a1, a2⟩ := h.alone hr ha
        obtain ⟨_, x, hx, hbe⟩ := hh
        refine ⟨x, hx, ?_⟩
        unfold Beside at hbe
        unfold Touched
        omega

theorem mergeLoop_whole (cur : Range) (G l E : List Range) (hc : CollectsWhole cur G)
    (hl : ∀ r ∈ l, Plain r ∧ first r ≤ last r) (hf : ∀ r ∈ l, first cur ≤ first r)
    (hp : l.Pairwise fun r s => first r ≤ first s) (hE : ∀ r ∈ E, Defined r ∧ last r < first r)
    (l' : List Range) (hl' : Parser.mergeLoop cur (l ++ E) = .ok l') (a : Addr) :
    (∃ r ∈ l', r.matchAddr a = .ok true) ↔ KeptWhole (G ++ l) E.head? a := by
  induction l generalizing cur G l' with
  | nil =>
    rw [List.append_nil, mergeLoop_after cur E hc.gathers.defined hc.gathers.order hE l' hl', hc.amid]
    intro x hx
    exact (hE x (List.mem_of_mem_head? hx)).2
  | cons next l ih =>
    obtain ⟨n1, n2⟩ := hl next List.mem_cons_self
    have hlt : ∀ r ∈ l, Plain r ∧ first r ≤ last r := fun r hr => hl r (List.mem_cons_of_mem _ hr)
    rw [List.pairwise_cons] at hp
    have hq := hf next List.mem_cons_self
    have hord := hc.gathers.order
    rw [List.cons_append, Parser.mergeLoop] at hl'
    rcases Nat.lt_or_ge (last cur + 1) (first next) with hgap | hmeet
    · rw [(union_cases cur next hc.gathers.defined).1 (by omega)] at hl'
      simp only [Res.bind_ok] at hl'
      rw [if_neg (by decide)] at hl'
      rcases h1 : Parser.mergeLoop next (l ++ E) with t | e | w
      · rw [h1] at hl'
        cases hl'
        rw [keptWhole_append (m := last cur + 1)
          (fun r hr => by have := hc.gathers.inside r hr; omega)
          (fun r hr => by
            rcases List.mem_cons.1 hr with rfl | hr
            · exact ⟨n2, hgap⟩
            · have := hp.1 r hr
              exact ⟨(hlt r hr).2, by omega⟩) ⟨next, List.mem_cons_self⟩]
        have := ih next [next] (collectsWhole_one n1 n2) hlt hp.1 hp.2 t h1
        rw [List.singleton_append] at this
        rw [← this, ← hc.match_iff]
        simp
      · rw [h1] at hl'; cases hl'
      · rw [h1] at hl'; cases hl'
    · rcases hu : cur.unionIfPossible next with u | e | w
      · obtain ⟨hcu, hfu⟩ := hc.step n1 n2 hq hmeet hu
        rw [hu] at hl'
        simp only [Res.bind_ok] at hl'
        have hdef : (u.isDefined && !u.isEmpty) = true := by
          rw [(defined_isDefined u).2 hcu.gathers.defined]
          have : ¬ u.isEmpty = true := fun h => by
            have := (isEmpty_first_last hcu.gathers.defined).1 h
            have := hcu.gathers.order
            omega
          simp [this]
        rw [if_pos hdef] at hl'
        have := ih u (G ++ [next]) hcu hlt (fun x hx => by rw [hfu]; exact hf x (List.mem_cons_of_mem _ hx)) hp.2 l' hl'
        rw [List.append_assoc, List.singleton_append] at this
        exact this
      · rw [hu] at hl'; cases hl'
      · rw [hu] at hl'; cases hl'

theorem sortResult_whole (s : BitVec 64) (hm : s &&& SORT_MERGE ≠ 0) {l l' : List Range}
    (hl : ∀ r ∈ l, Plain r) (h : Parser.sortResult s l = .ok l') (a : Addr) :
    (∃ r ∈ l', r.matchAddr a = .ok true) ↔ KeptWhole (nonEmpty l) (firstEmpty l) a := by
  have hstep : mergeStep s = Parser.mergeAll := funext fun l => if_pos hm
  have hd : ∀ r ∈ l, Defined r := fun r hr => (hl r hr).defined
  obtain ⟨l1, e1, hs1⟩ := Parser.stableSort_ok (Parser.orders_lt hd)
  have hl1 : ∀ r ∈ l1, Plain r := fun r hr => hl r (hs1.perm.mem_iff.1 hr)
  have hbefore : l1.Pairwise fun r s => Parser.StartsBefore r s :=
    hs1.order.imp_of_mem fun {a b} ha hb hab => Parser.startsBefore_of_lt (hl1 a ha).defined (hl1 b hb).defined hab
  have hsplit := split_empty (hbefore.imp fun h => h.1)
  rw [empties_stable hd hs1] at hsplit
  have hE : ∀ r ∈ l.filter (fun r => decide (last r < first r)), Defined r ∧ last r < first r := by
    intro r hr
    rw [List.mem_filter] at hr
    exact ⟨hd r hr.1, by simpa using hr.2⟩
  have hN : ∀ r ∈ nonEmpty l1, Plain r ∧ first r ≤ last r := by
    intro r hr
    rw [nonEmpty, List.mem_filter] at hr
    exact ⟨hl1 r hr.1, by simpa using hr.2⟩
  have hord : (nonEmpty l1).Pairwise fun r s => first r ≤ first s :=
    (hbefore.sublist List.filter_sublist).imp_of_mem fun {a b} ha hb hab => hab.2 (hN b hb).2
  rw [firstEmpty_eq, ← keptWhole_perm (P := nonEmpty l1) (Q := nonEmpty l) (hs1.perm.filter _)]
  rw [sortResult_eq, if_pos (merge_or_full s hm), hstep, e1] at h
  simp only [Res.bind_ok] at h
  rcases h1 : Parser.mergeAll l1 with l2 | e | w
  · rw [h1] at h
    simp only [Res.bind_ok] at h
    have hkey : (∃ r ∈ l2, r.matchAddr a = .ok true) ↔ KeptWhole (nonEmpty l1) (l.filter fun r => decide (last r < first r)).head? a := by
      rw [hsplit] at h1
      generalize l.filter (fun r => decide (last r < first r)) = E at h1 hE
      generalize nonEmpty l1 = N at h1 hN hord
      cases N with
      | nil =>
        have : l2 = E := by
          cases E with
          | nil => cases h1; rfl
          | cons e E =>
            exact mergeLoop_all_empty e E (hE e List.mem_cons_self).1 (hE e List.mem_cons_self).2
              (fun r hr => hE r (List.mem_cons_of_mem _ hr)) l2 h1
        rw [this]
        constructor
        · rintro ⟨r, hr, hx⟩
          exact absurd hx (empty_nothing (hE r hr).1 (hE r hr).2 a)
        · rintro ⟨r, hr, _⟩; cases hr
      | cons cur N =>
        rw [List.pairwise_cons] at hord
        obtain ⟨j1, j2⟩ := hN cur List.mem_cons_self
        exact mergeLoop_whole cur [cur] N E (collectsWhole_one j1 j2) (fun r hr => hN r (List.mem_cons_of_mem _ hr)) hord.1 hord.2 hE l2 h1 a
    have hd2 : ∀ r ∈ l2, Defined r := by
      cases l1 with
      | nil => cases h1; exact fun r hr => (nomatch hr)
      | cons cur l1 =>
        rcases Parser.mergeLoop_outcome cur l1 (hl1 cur List.mem_cons_self).defined
          (fun r hr => (hl1 r (List.mem_cons_of_mem _ hr)).defined) with h' | ⟨l2', h', h'', _⟩
        · exact absurd (h'.symm.trans h1) (fun h => nomatch h)
        · have := h'.symm.trans h1
          cases this
          exact h''
    obtain ⟨l3, e3, hp, _⟩ := familyStep_ok s hd2
    rw [e3] at h
    cases h
    rw [← hkey]
    simp only [hp.mem_iff]
  · rw [h1] at h; cases h
  · rw [h1] at h; cases h

/-! ## C116 -/

/-- C116: what a merged list matches, whatever the list. -/
theorem C116_exact (env : ParseEnv) (inp : Str) (p : Parser) (hm : p.config.sort &&& SORT_MERGE ≠ 0) (l l' : List Range)
    (hl : (Parser.parse env inp (unsortedOf p)).2 = .ok l) (hl' : (Parser.parse env inp p).2 = .ok l') (a : Addr) :
    ∃ b, addressMatchRanges l' a = .ok b ∧ (b = true ↔ KeptWhole (nonEmpty l) (firstEmpty l) a) := by
  obtain ⟨_, _, _, _, h5⟩ := parse_sort env inp p
  obtain ⟨hd, he⟩ := h5 l hl
  have hhi := (Parser.hiWhole_parseUnsorted (env := env) (c := (unsortedOf p).config) inp (unsortedOf p) rfl).2 l (by
    rw [← parse_unsortedOf, hl])
  obtain ⟨b, h1, h2⟩ := C35_any_range l' a
  refine ⟨b, h1, h2.trans ?_⟩
  exact sortResult_whole p.config.sort hm (fun r hr => ⟨hd r hr, hhi r hr⟩) (he.symm.trans hl') a

/-- C116: merging never adds an address. -/
def C116_claim : Prop :=
  ∀ (env : ParseEnv) (inp : Str) (p : Parser), p.config.sort &&& SORT_MERGE ≠ 0 → ∀ l l' : List Range,
    (Parser.parse env inp (unsortedOf p)).2 = .ok l → (Parser.parse env inp p).2 = .ok l' →
      ∀ a : Addr, addressMatchRanges l' a = .ok true → addressMatchRanges l a = .ok true

/-- C116: the list of one address, written twice, becomes the network of the mask which was written after its last bound. -/
theorem C116_claim_fails : ¬ C116_claim := by
  intro h
  obtain ⟨l, h1, h2⟩ := resultMatches_elim (b := false) (a := sampleV4 10 0 0 9)
    (by decide +kernel : resultMatches (Parser.parse sampleEnv "-10.0.0.5/100,10.0.0.5".toList (unsortedOf mergeRangeParser)).2
      (sampleV4 10 0 0 9) = some false)
  obtain ⟨l', h3, h4⟩ := resultMatches_elim (b := true) (a := sampleV4 10 0 0 9)
    (by decide +kernel : resultMatches (Parser.parse sampleEnv "-10.0.0.5/100,10.0.0.5".toList mergeRangeParser).2 (sampleV4 10 0 0 9) = some true)
  have := h sampleEnv _ mergeRangeParser (by decide) l l' h1 h3 _ h4
  rw [h2] at this
  cases this

/-- C116: an address which is added is in the network of a mask written after a range without a first address, whose address is in the list twice
and stands alone. -/
theorem C116_added (env : ParseEnv) (inp : Str) (p : Parser) (hm : p.config.sort &&& SORT_MERGE ≠ 0) (l l' : List Range)
    (hl : (Parser.parse env inp (unsortedOf p)).2 = .ok l) (hl' : (Parser.parse env inp p).2 = .ok l') (a : Addr)
    (h : addressMatchRanges l' a = .ok true) (h' : addressMatchRanges l a = .ok false) :
    ∃ r ∈ l, r.hasFrom = false ∧ r.hasTo = true ∧ StandsAlone (nonEmpty l) r ∧ Twice (nonEmpty l) r
      ∧ ∃ k : Nat, k < 128 ∧ r.lo.getMaskSize = (k : Int) ∧ InNetwork (ip a.getIpv6.addr) (first r) k := by
  obtain ⟨_, _, _, _, h5⟩ := parse_sort env inp p
  obtain ⟨hd, _⟩ := h5 l hl
  have hhi := (Parser.hiWhole_parseUnsorted (env := env) (c := (unsortedOf p).config) inp (unsortedOf p) rfl).2 l (by
    rw [← parse_unsortedOf, hl])
  obtain ⟨b, h1, h2⟩ := C116_exact env inp p hm l l' hl hl' a
  rw [h] at h1
  cases h1
  obtain ⟨c, h3, h4⟩ := C35_any_range l a
  rw [h'] at h3
  cases h3
  have hno : ∀ r ∈ l, ¬ r.matchAddr a = .ok true := fun r hr hx => absurd (h4.2 ⟨r, hr, hx⟩) Bool.false_ne_true
  obtain ⟨r, hr, hb⟩ := h2.1 rfl
  rw [nonEmpty, List.mem_filter] at hr
  have hp : Plain r := ⟨hd r hr.1, hhi r hr.1⟩
  have hself : ip a.getIpv6.addr = first r → r.isRange = false → False := fun he ht => hno r hr.1 (plain_self hp ht he)
  rcases hb with hb | ⟨hal, hx | ⟨htw, k, hk, hin⟩, _⟩
  · exfalso
    by_cases ht : r.isRange = true
    · exact hno r hr.1 ((match_complete ((complete_isRange r).1 ht) a).2 hb)
    · have ht' : r.isRange = false := Bool.not_eq_true _ ▸ ht
      have := plain_last hp ht'
      unfold between at hb
      exact hself (by omega) ht'
  · exact absurd hx (hno r hr.1)
  · rcases plain_cases hp hal.1 with ⟨f1, f2⟩ | ⟨f1, f2⟩
    · obtain ⟨k', hk', hnet⟩ := plain_network f1 f2 (by omega)
      have : k' = k := by omega
      rw [this] at hnet
      exact absurd ((hnet a).2 hin) (hno r hr.1)
    · refine ⟨r, hr.1, f1, f2, hal, htw, k, ?_, hk, hin⟩
      rcases Nat.lt_or_ge k 128 with hlt | hge
      · exact hlt
      · exfalso
        refine hself ?_ hal.1
        unfold InNetwork at hin
        rw [show 128 - k = 0 by omega] at hin
        simpa using hin

/-- Masks of 96 bits at least are always accepted. -/
theorem union_accepted {r s : Range} (hr : Plain r ∧ 96 ≤ r.lo.getMaskSize) (hs : Plain s ∧ 96 ≤ s.lo.getMaskSize) : UnionMasksAccepted r s := by
  have h1 : r.lo.getMaskSize ≤ 128 := by
    rcases getMaskSize_cases r.lo with ⟨h, _⟩ | ⟨k, hk, _, h⟩ <;> omega
  have h2 := hr.1.hi
  have h3 := hs.1.hi
  unfold UnionMasksAccepted MaskCountAccepted
  constructor
  · split <;> omega
  · split <;> omega

theorem mergeLoop_returns (cur : Range) (l : List Range) (hc : Plain cur ∧ 96 ≤ cur.lo.getMaskSize)
    (hl : ∀ r ∈ l, Plain r ∧ 96 ≤ r.lo.getMaskSize) : ∃ l', Parser.mergeLoop cur l = .ok l' := by
  induction l generalizing cur with
  | nil => exact ⟨_, rfl⟩
  | cons next l ih =>
    have hn := hl next List.mem_cons_self
    have hl' : ∀ r ∈ l, Plain r ∧ 96 ≤ r.lo.getMaskSize := fun r hr => hl r (List.mem_cons_of_mem _ hr)
    obtain ⟨c1, _, c3⟩ := union_cases cur next hc.1.defined
    rw [Parser.mergeLoop]
    obtain ⟨u, hu, hp⟩ : ∃ u, cur.unionIfPossible next = .ok u ∧ (u.isDefined = true → Plain u ∧ 96 ≤ u.lo.getMaskSize) := by
      by_cases hm : (first cur ≤ last next ∧ first next ≤ last cur) ∨ last next + 1 = first cur ∨ first next = last cur + 1
      · obtain ⟨u, e, hd, _, _, hmask, _⟩ := c3 hm (union_accepted hc hn)
        exact ⟨u, e, fun _ => ⟨⟨hd, Parser.hiWhole_union hc.1.hi hn.1.hi e⟩, by rw [hmask]; omega⟩⟩
      · exact ⟨_, c1 hm, fun h => absurd h (by decide)⟩
    rw [hu]
    simp only [Res.bind_ok]
    by_cases hd : (u.isDefined && !u.isEmpty) = true
    · rw [if_pos hd]
      rw [Bool.and_eq_true] at hd
      exact ih u (hp hd.1) hl'
    · rw [if_neg hd]
      obtain ⟨t, ht⟩ := ih next hn hl'
      rw [ht]
      exact ⟨_, rfl⟩

/-- C116: when all the masks have 96 bits at least, as those of the IPv4 addresses have, merging never throws, whatever the ranges. -/
theorem C116_returns (env : ParseEnv) (inp : Str) (p : Parser) (hm : p.config.sort &&& SORT_MERGE ≠ 0) (l : List Range)
    (hl : (Parser.parse env inp (unsortedOf p)).2 = .ok l) (h96 : ∀ r ∈ l, 96 ≤ r.lo.getMaskSize) : ∃ l', (Parser.parse env inp p).2 = .ok l' := by
  obtain ⟨_, _, _, _, h5⟩ := parse_sort env inp p
  obtain ⟨hd, he⟩ := h5 l hl
  have hhi := (Parser.hiWhole_parseUnsorted (env := env) (c := (unsortedOf p).config) inp (unsortedOf p) rfl).2 l (by
    rw [← parse_unsortedOf, hl])
  have hstep : mergeStep p.config.sort = Parser.mergeAll := funext fun l => if_pos hm
  obtain ⟨l1, e1, hs1⟩ := Parser.stableSort_ok (Parser.orders_lt hd)
  have hl1 : ∀ r ∈ l1, Plain r ∧ 96 ≤ r.lo.getMaskSize := fun r hr => by
    have hr' := hs1.perm.mem_iff.1 hr
    exact ⟨⟨hd r hr', hhi r hr'⟩, h96 r hr'⟩
  rw [he, sortResult_eq, if_pos (merge_or_full p.config.sort hm), hstep, e1]
  simp only [Res.bind_ok]
  cases l1 with
  | nil =>
    obtain ⟨l3, e3, _⟩ := familyStep_ok p.config.sort (l := []) (fun r hr => nomatch hr)
    exact ⟨l3, e3⟩
  | cons cur l1 =>
    have hc := hl1 cur List.mem_cons_self
    have hr : ∀ r ∈ l1, Plain r ∧ 96 ≤ r.lo.getMaskSize := fun r hr => hl1 r (List.mem_cons_of_mem _ hr)
    obtain ⟨l2, e2⟩ := mergeLoop_returns cur l1 hc hr
    rcases Parser.mergeLoop_outcome cur l1 hc.1.defined (fun r h => (hr r h).1.defined) with h' | ⟨l2', h', h'', _⟩
    · rw [h'] at e2; cases e2
    · rw [show Parser.mergeAll (cur :: l1) = Parser.mergeLoop cur l1 from rfl, h']
      simp only [Res.bind_ok]
      obtain ⟨l3, e3, _⟩ := familyStep_ok p.config.sort h''
      exact ⟨l3, e3⟩

/-! ### Examples -/

/-- C116_exact and C116_returns on a list which is matched by more addresses once merged. -/
example : ∃ l l', (Parser.parse sampleEnv "-10.0.0.5/100,10.0.0.5,10.0.0.9-10.0.0.1".toList (unsortedOf mergeRangeParser)).2 = .ok l
    ∧ (Parser.parse sampleEnv "-10.0.0.5/100,10.0.0.5,10.0.0.9-10.0.0.1".toList mergeRangeParser).2 = .ok l' ∧ l.length = 3
    ∧ (∀ a, addressMatchRanges l' a = .ok true ↔ KeptWhole (nonEmpty l) (firstEmpty l) a) := by
  have hall : (match (Parser.parse sampleEnv "-10.0.0.5/100,10.0.0.5,10.0.0.9-10.0.0.1".toList (unsortedOf mergeRangeParser)).2 with
      | .ok l => l.length = 3 && l.all fun r => decide (96 ≤ r.lo.getMaskSize)
      | _ => false) = true := by decide +kernel
  obtain ⟨l, h1, h2⟩ : ∃ l, (Parser.parse sampleEnv "-10.0.0.5/100,10.0.0.5,10.0.0.9-10.0.0.1".toList (unsortedOf mergeRangeParser)).2 = .ok l
      ∧ l.length = 3 ∧ ∀ r ∈ l, 96 ≤ r.lo.getMaskSize := by
    generalize (Parser.parse sampleEnv "-10.0.0.5/100,10.0.0.5,10.0.0.9-10.0.0.1".toList (unsortedOf mergeRangeParser)).2 = x at hall
    cases x with
    | throw e => cases hall
    | ub w => cases hall
    | ok l =>
      simp only [Bool.and_eq_true, decide_eq_true_eq, List.all_eq_true] at hall
      exact ⟨l, rfl, hall.1, hall.2⟩
  obtain ⟨l', h3⟩ := C116_returns sampleEnv _ mergeRangeParser (by decide) l h1 h2.2
  refine ⟨l, l', h1, h3, h2.1, fun a => ?_⟩
  obtain ⟨b, j1, j2⟩ := C116_exact _ _ _ (by decide) l l' h1 h3 a
  rw [j1, ← j2]
  exact ⟨fun h => by injection h, fun h => by rw [h]⟩

/-- C116_added on that list without its empty range. -/
example : ∃ l, (Parser.parse sampleEnv "-10.0.0.5/100,10.0.0.5".toList (unsortedOf mergeRangeParser)).2 = .ok l
    ∧ ∃ r ∈ l, r.hasFrom = false ∧ ∃ k : Nat, k < 128 ∧ r.lo.getMaskSize = (k : Int) := by
  obtain ⟨l, h1, h2⟩ := resultMatches_elim (b := false) (a := sampleV4 10 0 0 9)
    (by decide +kernel : resultMatches (Parser.parse sampleEnv "-10.0.0.5/100,10.0.0.5".toList (unsortedOf mergeRangeParser)).2
      (sampleV4 10 0 0 9) = some false)
  obtain ⟨l', h3, h4⟩ := resultMatches_elim (b := true) (a := sampleV4 10 0 0 9)
    (by decide +kernel : resultMatches (Parser.parse sampleEnv "-10.0.0.5/100,10.0.0.5".toList mergeRangeParser).2 (sampleV4 10 0 0 9) = some true)
  obtain ⟨r, hr, f1, _, _, _, k, hk, hk', _⟩ := C116_added sampleEnv _ mergeRangeParser (by decide) l l' h1 h3 _ h4 h2
  exact ⟨l, h1, r, hr, f1, k, hk, hk'⟩

end Verif
