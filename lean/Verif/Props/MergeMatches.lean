import Verif.Props.MergeThrows

/-!
# Property C104: what a merged list matches
-/

namespace Verif

open Spec

/-- One address, and no range overlaps or touches it except the same address again. -/
def StandsAlone (L : List Range) (r : Range) : Prop :=
  r.isRange = false ∧ ∀ s ∈ L, meetOrTouch (first s) (last s) (first r) (last r) → s.isRange = false ∧ first s = first r

/-- An address which is within the bounds of one of the ranges, or which matches the mask of one which stands alone. -/
def KeptBy (L : List Range) (a : Addr) : Prop :=
  ∃ r ∈ L, between (ip a.getIpv6.addr) (first r) (last r) ∨ (StandsAlone L r ∧ r.matchAddr a = .ok true)

theorem keptBy_perm {P Q : List Range} (h : P.Perm Q) (a : Addr) : KeptBy P a ↔ KeptBy Q a := by
  simp only [KeptBy, StandsAlone, h.mem_iff]

/-- All of the first ranges end before `m`, all of the others start after it. -/
theorem keptBy_append {P Q : List Range} {m : Nat} (hP : ∀ r ∈ P, first r ≤ last r ∧ last r < m)
    (hQ : ∀ r ∈ Q, first r ≤ last r ∧ m < first r) (a : Addr) : KeptBy (P ++ Q) a ↔ KeptBy P a ∨ KeptBy Q a := by
  have s1 : ∀ r ∈ P, StandsAlone (P ++ Q) r ↔ StandsAlone P r := by
    intro r hr
    have h1 := hP r hr
    refine and_congr_right fun _ => ⟨fun h s hs => h s (List.mem_append.2 (.inl hs)), fun h s hs hm => ?_⟩
    rcases List.mem_append.1 hs with hs | hs
    · exact h s hs hm
    · have := hQ s hs
      unfold meetOrTouch at hm
      omega
  have s2 : ∀ r ∈ Q, StandsAlone (P ++ Q) r ↔ StandsAlone Q r := by
    intro r hr
    have h1 := hQ r hr
    refine and_congr_right fun _ => ⟨fun h s hs => h s (List.mem_append.2 (.inr hs)), fun h s hs hm => ?_⟩
    rcases List.mem_append.1 hs with hs | hs
    · have := hP s hs
      unfold meetOrTouch at hm
      omega
    · exact h s hs hm
  constructor
  · rintro ⟨r, hr, h⟩
    rcases List.mem_append.1 hr with hr | hr
    · rw [s1 r hr] at h
      exact .inl ⟨r, hr, h⟩
    · rw [s2 r hr] at h
      exact .inr ⟨r, hr, h⟩
  · rintro (⟨r, hr, h⟩ | ⟨r, hr, h⟩)
    · rw [← s1 r hr] at h
      exact ⟨r, List.mem_append.2 (.inl hr), h⟩
    · rw [← s2 r hr] at h
      exact ⟨r, List.mem_append.2 (.inr hr), h⟩

/-- A range which has a first address, or whose mask is that of an address alone; its last address has no mask. -/
structure Sound (r : Range) : Prop where
  defined : Defined r
  hi : r.hi.getMaskSize = 128
  lo : r.hasFrom = true ∨ r.lo.getMaskSize = 128

theorem sound_cases {r : Range} (h : Sound r) (ht : r.isRange = false) :
    (r.hasFrom = true ∧ r.hasTo = false) ∨ (r.hasFrom = false ∧ r.hasTo = true ∧ r.lo.getMaskSize = 128) := by
  rcases Bool.eq_false_or_eq_true r.hasFrom with hf | hf <;> rcases Bool.eq_false_or_eq_true r.hasTo with hto | hto
  · rw [(complete_isRange r).2 ⟨hf, hto⟩] at ht
    cases ht
  · exact .inl ⟨hf, hto⟩
  · exact .inr ⟨hf, hto, h.lo.resolve_left (by rw [hf]; exact Bool.false_ne_true)⟩
  · rcases h.defined with h | h
    · rw [hf] at h; cases h
    · rw [hto] at h; cases h

theorem single_last {r : Range} (h : Sound r) (ht : r.isRange = false) : last r = first r := by
  rcases sound_cases h ht with ⟨h1, h2⟩ | ⟨h1, h2, _⟩
  · rw [first, last, if_pos h1, if_neg (by rw [h2]; exact Bool.false_ne_true)]
  · rw [first, last, if_pos h2, if_neg (by rw [h1]; exact Bool.false_ne_true)]

/-- An address matches itself whatever the mask. -/
theorem single_self {r : Range} (h : Sound r) (ht : r.isRange = false) {a : Addr} (ha : ip a.getIpv6.addr = first r) :
    r.matchAddr a = .ok true := by
  rcases sound_cases h ht with ⟨h1, h2⟩ | ⟨h1, h2, _⟩
  · have he : r.matchAddr a = .ok (r.lo.matchAddr a) := by
      simp [Range.matchAddr, Range.isEmpty, Range.isRange, h1, h2]
    rw [first, if_pos h1, fromIp] at ha
    rw [he, (C11_match_bits r.lo a).2]
    intro i _ _
    rw [ha]
  · have he : r.matchAddr a = .ok (r.hi.matchAddr a) := by
      simp [Range.matchAddr, Range.isEmpty, Range.isRange, h1, h2]
    rw [first, if_neg (by rw [h1]; exact Bool.false_ne_true), toIp] at ha
    rw [he, (C11_match_bits r.hi a).2]
    intro i _ _
    rw [ha]

theorem single_network {r : Range} (h : Sound r) (ht : r.isRange = false) (h0 : 0 ≤ r.lo.getMaskSize) :
    ∃ k : Nat, r.lo.getMaskSize = (k : Int) ∧ ∀ a : Addr, r.matchAddr a = .ok true ↔ InNetwork (ip a.getIpv6.addr) (first r) k := by
  rcases sound_cases h ht with ⟨hf, hto⟩ | ⟨hf, hto, hk⟩
  · rcases getMaskSize_cases r.lo with ⟨h, _⟩ | ⟨k, hk, h1, h2⟩
    · omega
    · refine ⟨k, h2, network_match ⟨hf, hto, ?_, hk, h1⟩⟩
      rw [first, if_pos hf]
      rfl
  · refine ⟨128, hk, fun a => ?_⟩
    have he : r.matchAddr a = r.swapFromTo.matchAddr a := by
      simp [Range.matchAddr, Range.isEmpty, Range.isRange, Range.swapFromTo, hf, hto]
    rw [he]
    refine network_match (r := r.swapFromTo) ⟨hto, hf, ?_, by decide, ?_⟩ a
    · rw [first, if_neg (by rw [hf]; exact Bool.false_ne_true)]
      rfl
    · rcases getMaskSize_cases r.hi with ⟨h', _⟩ | ⟨k, _, h1, h2⟩
      · have := h.hi
        omega
      · have : k = 128 := by have := h.hi; omega
        rw [this] at h1
        exact h1

/-- What the range built so far stands for. -/
structure Collects (cur : Range) (G : List Range) : Prop where
  gathers : Gathers cur G
  sound : Sound cur
  sounds : ∀ g ∈ G, Sound g
  shape : G = [cur] ∨ ((∀ g ∈ G, 0 ≤ g.lo.getMaskSize)
    ∧ ((cur.isRange = false ∧ ∀ g ∈ G, g.isRange = false) ∨ (cur.isRange = true ∧ (first cur < last cur ∨ ∃ g ∈ G, g.isRange = true))))

theorem match_complete {r : Range} (hc : Complete r) (a : Addr) : r.matchAddr a = .ok true ↔ between (ip a.getIpv6.addr) (first r) (last r) := by
  obtain ⟨b, hb, hb'⟩ := C24_match_complete r a hc
  rw [first_of_complete hc, last_of_complete hc, ← hb', hb]
  exact ⟨fun h => by injection h, fun h => by rw [h]⟩

theorem Collects.match_iff {cur : Range} {G : List Range} (h : Collects cur G) (a : Addr) : cur.matchAddr a = .ok true ↔ KeptBy G a := by
  have hg := h.gathers
  rcases h.shape with rfl | ⟨hsz, ⟨ht, hts⟩ | ⟨ht, hwhy⟩⟩
  · by_cases ht : cur.isRange = true
    · rw [match_complete ((complete_isRange cur).1 ht)]
      constructor
      · exact fun hb => ⟨cur, List.mem_singleton.2 rfl, .inl hb⟩
      · rintro ⟨r, hr, hb | ⟨hal, _⟩⟩
        · rw [List.mem_singleton] at hr
          rw [← hr]
          exact hb
        · rw [List.mem_singleton] at hr
          rw [hr] at hal
          exact absurd (hal.1.symm.trans ht) Bool.false_ne_true
    · have ht' : cur.isRange = false := Bool.not_eq_true _ ▸ ht
      constructor
      · refine fun hm => ⟨cur, List.mem_singleton.2 rfl, .inr ⟨⟨ht', fun s hs _ => ?_⟩, hm⟩⟩
        rw [List.mem_singleton] at hs
        rw [hs]
        exact ⟨ht', rfl⟩
      · rintro ⟨r, hr, hb | ⟨_, hm⟩⟩
        · rw [List.mem_singleton] at hr
          rw [hr] at hb
          refine single_self h.sound ht' ?_
          have := single_last h.sound ht'
          have := hb.1
          have := hb.2
          omega
        · rw [List.mem_singleton] at hr
          rw [← hr]
          exact hm
  · -- the same address again and again
    have hall : ∀ g ∈ G, first g = first cur ∧ last g = first cur := fun g hgG => by
      have h1 := hg.inside g hgG
      have h2 := single_last h.sound ht
      have h3 := single_last (h.sounds g hgG) (hts g hgG)
      omega
    obtain ⟨g0, hg0, hs0⟩ := hg.small
    obtain ⟨k, hk, hnet⟩ := single_network h.sound ht (by rw [hs0]; exact hsz g0 hg0)
    have halone : ∀ g ∈ G, StandsAlone G g := fun g hgG =>
      ⟨hts g hgG, fun s hs _ => ⟨hts s hs, by rw [(hall s hs).1, (hall g hgG).1]⟩⟩
    constructor
    · intro hm
      refine ⟨g0, hg0, .inr ⟨halone g0 hg0, ?_⟩⟩
      obtain ⟨k0, hk0, hnet0⟩ := single_network (h.sounds g0 hg0) (hts g0 hg0) (hsz g0 hg0)
      rw [hnet] at hm
      rw [hnet0, (hall g0 hg0).1]
      have : k0 = k := by omega
      rw [this]
      exact hm
    · rintro ⟨g, hgG, hb | ⟨_, hm⟩⟩
      · refine single_self h.sound ht ?_
        have := hall g hgG
        have := hb.1
        have := hb.2
        omega
      · obtain ⟨k1, hk1, hnet1⟩ := single_network (h.sounds g hgG) (hts g hgG) (hsz g hgG)
        rw [hnet1, (hall g hgG).1] at hm
        rw [hnet]
        refine inNetwork_mono ?_ hm
        have := hg.smallest g hgG
        omega
  · rw [match_complete ((complete_isRange cur).1 ht), ← hg.filled]
    constructor
    · rintro ⟨r, hr, hb⟩
      exact ⟨r, hr, .inl hb⟩
    · rintro ⟨r, hr, hb | ⟨hal, _⟩⟩
      · exact ⟨r, hr, hb⟩
      · exfalso
        have hin := hg.inside r hr
        have hrl := single_last (h.sounds r hr) hal.1
        have touches : ∀ v, between v (first cur) (last cur) → v ≤ first r + 1 → first r ≤ v + 1 → v = first r := by
          intro v hv h1 h2
          obtain ⟨s, hs, hsv⟩ := (hg.filled v).2 hv
          have h3 := hal.2 s hs (by
            have := hsv.1
            have := hsv.2
            unfold meetOrTouch
            omega)
          have := single_last (h.sounds s hs) h3.1
          have := hsv.1
          have := hsv.2
          omega
        rcases hwhy with hlt | ⟨s, hs, hst⟩
        · by_cases hl : first r = last cur
          · have := touches (first r - 1) ⟨by omega, by omega⟩ (by omega) (by omega)
            omega
          · have := touches (first r + 1) ⟨by omega, by omega⟩ (by omega) (by omega)
            omega
        · by_cases hlt : first cur < last cur
          · by_cases hl : first r = last cur
            · have := touches (first r - 1) ⟨by omega, by omega⟩ (by omega) (by omega)
              omega
            · have := touches (first r + 1) ⟨by omega, by omega⟩ (by omega) (by omega)
              omega
          · have h1 := hg.inside s hs
            have h3 := hal.2 s hs (by unfold meetOrTouch; omega)
            exact absurd (h3.1.symm.trans hst) Bool.false_ne_true

theorem collects_one {r : Range} (hf : Sound r) (ho : first r ≤ last r) : Collects r [r] where
  gathers := gathers_one hf.defined ho hf.hi
  sound := hf
  sounds g hg := by
    rw [List.mem_singleton] at hg
    rw [hg]
    exact hf
  shape := .inl rfl

/-- One step of the loop which merges. -/
theorem Collects.step {cur next u : Range} {G : List Range} (h : Collects cur G) (hf : Sound next) (hn : first next ≤ last next)
    (ho : first cur ≤ first next) (hmeet : first next ≤ last cur + 1)
    (hu : cur.unionIfPossible next = .ok u) : Collects u (G ++ [next]) ∧ first u = first cur := by
  have hg := h.gathers
  have hord := hg.order
  have hmeet' : (first cur ≤ last next ∧ first next ≤ last cur) ∨ last next + 1 = first cur ∨ first next = last cur + 1 := by omega
  obtain ⟨_, c2, c3⟩ := union_cases cur next hg.defined
  by_cases hacc : UnionMasksAccepted cur next
  · obtain ⟨u', e, hd, f, la, hmask, hcomp⟩ := c3 hmeet' hacc
    rw [hu] at e
    cases e
    have hfirst : first u = first cur := by rw [f]; omega
    have huhi : u.hi.getMaskSize = 128 := (Parser.hiWhole_union hg.hi hf.hi hu)
    have h96 := hacc.1.1
    rw [Nat.min_eq_left ho] at h96
    have hG : ∀ g ∈ G ++ [next], leastBits (first cur) ≤ g.lo.getMaskSize := by
      unfold leastBits
      intro g hgG
      rcases List.mem_append.1 hgG with hgG | hgG
      · have := hg.smallest g hgG
        omega
      · rw [List.mem_singleton] at hgG
        rw [hgG]
        omega
    have hgu : Gathers u (G ++ [next]) := by
      refine ⟨hd, by omega, huhi, ?_, ?_, ?_, ?_, .inr (by rw [hfirst]; exact hG)⟩
      · intro g hgG
        rw [hfirst, la]
        rcases List.mem_append.1 hgG with hgG | hgG
        · obtain ⟨j1, j2, j3⟩ := hg.inside g hgG
          omega
        · rw [List.mem_singleton] at hgG
          rw [hgG]
          omega
      · intro v
        rw [holding_append, hg.filled, hfirst, la]
        have : Holding [next] v ↔ between v (first next) (last next) := by simp [Holding]
        rw [this]
        unfold between
        omega
      · rw [hmask]
        obtain ⟨g, hgG, hsz⟩ := hg.small
        rcases Int.lt_or_le cur.lo.getMaskSize next.lo.getMaskSize with h' | h'
        · exact ⟨g, List.mem_append.2 (.inl hgG), by rw [← hsz]; omega⟩
        · exact ⟨next, List.mem_append.2 (.inr (List.mem_singleton.2 rfl)), by omega⟩
      · intro g hgG
        rw [hmask]
        rcases List.mem_append.1 hgG with hgG | hgG
        · have := hg.smallest g hgG
          omega
        · rw [List.mem_singleton] at hgG
          rw [hgG]
          omega
    have hfroms : ∀ g ∈ G ++ [next], Sound g := by
      intro g hgG
      rcases List.mem_append.1 hgG with hgG | hgG
      · exact h.sounds g hgG
      · rw [List.mem_singleton] at hgG
        rw [hgG]
        exact hf
    have h0 : ∀ g ∈ G ++ [next], 0 ≤ g.lo.getMaskSize := by
      intro g hgG
      have := hG g hgG
      unfold leastBits at this
      split at this <;> omega
    -- whether one of the ranges has a last address
    have hany : cur.isRange = true → first cur < last cur ∨ ∃ g ∈ G, g.isRange = true := by
      intro ht
      rcases h.shape with rfl | ⟨_, ⟨ht', _⟩ | ⟨_, hw⟩⟩
      · exact .inr ⟨cur, List.mem_singleton.2 rfl, ht⟩
      · exact absurd (ht'.symm.trans ht) Bool.false_ne_true
      · exact hw
    by_cases hc : Complete cur ∨ Complete next
    · have hcu := (hcomp hc).1
      refine ⟨⟨hgu, ⟨hd, huhi, .inl hcu.1⟩, hfroms, .inr ⟨h0, .inr ⟨(complete_isRange u).2 hcu, ?_⟩⟩⟩, hfirst⟩
      rcases hc with hc | hc
      · rcases hany ((complete_isRange cur).2 hc) with hlt | ⟨g, hgG, hgt⟩
        · left
          omega
        · exact .inr ⟨g, List.mem_append.2 (.inl hgG), hgt⟩
      · exact .inr ⟨next, List.mem_append.2 (.inr (List.mem_singleton.2 rfl)), (complete_isRange next).2 hc⟩
    · have ht1 : cur.isRange = false := Bool.not_eq_true _ ▸ fun ht => hc (.inl ((complete_isRange cur).1 ht))
      have ht2 : next.isRange = false := Bool.not_eq_true _ ▸ fun ht => hc (.inr ((complete_isRange next).1 ht))
      obtain ⟨j1, j2, _⟩ := union_two ht1 ht2 hg.defined hu hd
      refine ⟨⟨hgu, ⟨hd, huhi, .inl j1⟩, hfroms, .inr ⟨h0, ?_⟩⟩, hfirst⟩
      by_cases ht : u.isRange = true
      · have := j2.1 ((complete_isRange u).1 ht).2
        have := hgu.order
        exact .inr ⟨ht, .inl (by omega)⟩
      · refine .inl ⟨Bool.not_eq_true _ ▸ ht, fun g hgG => ?_⟩
        rcases List.mem_append.1 hgG with hgG | hgG
        · rcases h.shape with rfl | ⟨_, ⟨_, hts⟩ | ⟨ht', _⟩⟩
          · rw [List.mem_singleton] at hgG
            rw [hgG]
            exact ht1
          · exact hts g hgG
          · exact absurd (ht1.symm.trans ht') Bool.false_ne_true
        · rw [List.mem_singleton] at hgG
          rw [hgG]
          exact ht2
  · rw [c2 hmeet' hacc] at hu
    cases hu

theorem mergeLoop_matches (cur : Range) (G l : List Range) (hc : Collects cur G)
    (hl : ∀ r ∈ l, Sound r ∧ first r ≤ last r) (hf : ∀ r ∈ l, first cur ≤ first r)
    (hp : l.Pairwise fun r s => first r ≤ first s) (l' : List Range) (hl' : Parser.mergeLoop cur l = .ok l') (a : Addr) :
    (∃ r ∈ l', r.matchAddr a = .ok true) ↔ KeptBy (G ++ l) a := by
  induction l generalizing cur G l' with
  | nil =>
    cases hl'
    rw [List.append_nil, ← hc.match_iff]
    simp
  | cons next l ih =>
    obtain ⟨n1, n2⟩ := hl next List.mem_cons_self
    have hlt : ∀ r ∈ l, Sound r ∧ first r ≤ last r := fun r hr => hl r (List.mem_cons_of_mem _ hr)
    rw [List.pairwise_cons] at hp
    have hq := hf next List.mem_cons_self
    have hord := hc.gathers.order
    rw [Parser.mergeLoop] at hl'
    rcases Nat.lt_or_ge (last cur + 1) (first next) with hgap | hmeet
    · rw [(union_cases cur next hc.gathers.defined).1 (by omega)] at hl'
      simp only [Res.bind_ok] at hl'
      rw [if_neg (by decide)] at hl'
      rcases h1 : Parser.mergeLoop next l with t | e | w
      · rw [h1] at hl'
        cases hl'
        rw [keptBy_append (m := last cur + 1)
          (fun r hr => by have := hc.gathers.inside r hr; omega)
          (fun r hr => by
            rcases List.mem_cons.1 hr with rfl | hr
            · exact ⟨n2, hgap⟩
            · have := hp.1 r hr
              exact ⟨(hlt r hr).2, by omega⟩)]
        have := ih next [next] (collects_one n1 n2) hlt hp.1 hp.2 t h1
        rw [List.singleton_append] at this
        rw [← this, ← hc.match_iff]
        simp
      · rw [h1] at hl'; cases hl'
      · rw [h1] at hl'; cases hl'
    · rcases hu : cur.unionIfPossible next with u | e | w
      · obtain ⟨hcu, hfu⟩ := hc.step n1 n2 hq hmeet hu
        rw [hu] at hl'
        simp only [Res.bind_ok] at hl'
        have hdef : (u.isDefined && !u.isEmpty) = true := by
          rw [(defined_isDefined u).2 hcu.gathers.defined]
          have : ¬ u.isEmpty = true := fun h => by
            have := (isEmpty_first_last hcu.gathers.defined).1 h
            have := hcu.gathers.order
            omega
          simp [this]
        rw [if_pos hdef] at hl'
        have := ih u (G ++ [next]) hcu hlt (fun x hx => by rw [hfu]; exact hf x (List.mem_cons_of_mem _ hx)) hp.2 l' hl'
        rw [List.append_assoc, List.singleton_append] at this
        exact this
      · rw [hu] at hl'; cases hl'
      · rw [hu] at hl'; cases hl'

theorem sortResult_matches (s : BitVec 64) (hm : s &&& SORT_MERGE ≠ 0) {l l' : List Range}
    (hl : ∀ r ∈ l, Sound r ∧ first r ≤ last r) (h : Parser.sortResult s l = .ok l') (a : Addr) :
    (∃ r ∈ l', r.matchAddr a = .ok true) ↔ KeptBy l a := by
  have hstep : mergeStep s = Parser.mergeAll := funext fun l => if_pos hm
  have hd : ∀ r ∈ l, Defined r := fun r hr => (hl r hr).1.defined
  obtain ⟨l1, e1, hs1⟩ := Parser.stableSort_ok (Parser.orders_lt hd)
  have hl1 : ∀ r ∈ l1, Sound r ∧ first r ≤ last r := fun r hr => hl r (hs1.perm.mem_iff.1 hr)
  rw [← keptBy_perm hs1.perm]
  have hord : l1.Pairwise fun r s => first r ≤ first s :=
    hs1.order.imp_of_mem fun {a b} ha hb hab =>
      (Parser.startsBefore_of_lt (hl1 a ha).1.defined (hl1 b hb).1.defined hab).2 (hl1 b hb).2
  rw [sortResult_eq, if_pos (merge_or_full s hm), hstep, e1] at h
  simp only [Res.bind_ok] at h
  rcases h1 : Parser.mergeAll l1 with l2 | e | w
  · rw [h1] at h
    simp only [Res.bind_ok] at h
    have hkey : (∃ r ∈ l2, r.matchAddr a = .ok true) ↔ KeptBy l1 a := by
      cases l1 with
      | nil =>
        cases h1
        constructor
        · rintro ⟨r, hr, _⟩; cases hr
        · rintro ⟨r, hr, _⟩; cases hr
      | cons cur l1 =>
        rw [List.pairwise_cons] at hord
        obtain ⟨j1, j2⟩ := hl1 cur List.mem_cons_self
        exact mergeLoop_matches cur [cur] l1 (collects_one j1 j2) (fun r hr => hl1 r (List.mem_cons_of_mem _ hr)) hord.1 hord.2 l2 h1 a
    have hd2 : ∀ r ∈ l2, Defined r := by
      cases l1 with
      | nil => cases h1; exact fun r hr => (nomatch hr)
      | cons cur l1 =>
        rcases Parser.mergeLoop_outcome cur l1 (hl1 cur List.mem_cons_self).1.defined
          (fun r hr => (hl1 r (List.mem_cons_of_mem _ hr)).1.defined) with h' | ⟨l2', h', h'', _⟩
        · exact absurd (h'.symm.trans h1) (fun h => nomatch h)
        · have := h'.symm.trans h1
          cases this
          exact h''
    obtain ⟨l3, e3, hp, _⟩ := familyStep_ok s hd2
    rw [e3] at h
    cases h
    rw [← hkey]
    simp only [hp.mem_iff]
  · rw [h1] at h; cases h
  · rw [h1] at h; cases h

/-! ## C104 -/

/-- What is read is sound when a range without a first address has no mask. -/
theorem sound_read {env : ParseEnv} {inp : Str} {p : Parser} {l : List Range} (hl : (Parser.parse env inp (unsortedOf p)).2 = .ok l)
    (hf : ∀ r ∈ l, (r.hasFrom = true ∨ r.lo.getMaskSize = 128) ∧ first r ≤ last r) : ∀ r ∈ l, Sound r := by
  have hhi := (Parser.hiWhole_parseUnsorted (env := env) (c := (unsortedOf p).config) inp (unsortedOf p) rfl).2 l (by
    rw [← parse_unsortedOf, hl])
  obtain ⟨_, _, _, _, h5⟩ := parse_sort env inp p
  exact fun r hr => ⟨(h5 l hl).1 r hr, hhi r hr, (hf r hr).1⟩

/-- C104: what a merged list matches. -/
theorem C104_exact (env : ParseEnv) (inp : Str) (p : Parser) (hm : p.config.sort &&& SORT_MERGE ≠ 0) (l l' : List Range)
    (hl : (Parser.parse env inp (unsortedOf p)).2 = .ok l) (hf : ∀ r ∈ l, (r.hasFrom = true ∨ r.lo.getMaskSize = 128) ∧ first r ≤ last r)
    (hl' : (Parser.parse env inp p).2 = .ok l') (a : Addr) :
    ∃ b, addressMatchRanges l' a = .ok b ∧ (b = true ↔ KeptBy l a) := by
  obtain ⟨_, _, _, _, h5⟩ := parse_sort env inp p
  obtain ⟨_, he⟩ := h5 l hl
  obtain ⟨b, h1, h2⟩ := C35_any_range l' a
  refine ⟨b, h1, h2.trans ?_⟩
  exact sortResult_matches p.config.sort hm (fun r hr => ⟨sound_read hl hf r hr, (hf r hr).2⟩) (he.symm.trans hl') a

/-- C104: merging never adds an address to what a list matches. -/
theorem C104_never_more (env : ParseEnv) (inp : Str) (p : Parser) (hm : p.config.sort &&& SORT_MERGE ≠ 0) (l l' : List Range)
    (hl : (Parser.parse env inp (unsortedOf p)).2 = .ok l) (hf : ∀ r ∈ l, (r.hasFrom = true ∨ r.lo.getMaskSize = 128) ∧ first r ≤ last r)
    (hl' : (Parser.parse env inp p).2 = .ok l') (a : Addr) (h : addressMatchRanges l' a = .ok true) : addressMatchRanges l a = .ok true := by
  obtain ⟨b, h1, h2⟩ := C104_exact env inp p hm l l' hl hf hl' a
  rw [h] at h1
  cases h1
  obtain ⟨c, h3, h4⟩ := C35_any_range l a
  rw [h3, h4.2]
  obtain ⟨r, hr, hb | ⟨_, hm'⟩⟩ := h2.1 rfl
  · refine ⟨r, hr, ?_⟩
    by_cases ht : r.isRange = true
    · exact (match_complete ((complete_isRange r).1 ht) a).2 hb
    · have ht' : r.isRange = false := Bool.not_eq_true _ ▸ ht
      have hsd := sound_read hl hf r hr
      refine single_self hsd ht' ?_
      have := single_last hsd ht'
      have := hb.1
      have := hb.2
      omega
  · exact ⟨r, hr, hm'⟩

/-- C104: merging changes nothing when every address with a mask stands alone. -/
theorem C104_unchanged (env : ParseEnv) (inp : Str) (p : Parser) (hm : p.config.sort &&& SORT_MERGE ≠ 0) (l l' : List Range)
    (hl : (Parser.parse env inp (unsortedOf p)).2 = .ok l) (hf : ∀ r ∈ l, (r.hasFrom = true ∨ r.lo.getMaskSize = 128) ∧ first r ≤ last r)
    (ha : ∀ r ∈ l, r.hasTo = true ∨ r.lo.getMaskSize = 128 ∨ StandsAlone l r)
    (hl' : (Parser.parse env inp p).2 = .ok l') (a : Addr) : addressMatchRanges l' a = addressMatchRanges l a := by
  obtain ⟨b, h1, h2⟩ := C104_exact env inp p hm l l' hl hf hl' a
  obtain ⟨c, h3, h4⟩ := C35_any_range l a
  have : b = true ↔ c = true := by
    constructor
    · intro hb
      have := C104_never_more env inp p hm l l' hl hf hl' a (by rw [h1, hb])
      rw [h3] at this
      injection this
    · intro hc
      obtain ⟨r, hr, hm'⟩ := h4.1 hc
      refine h2.2 ⟨r, hr, ?_⟩
      by_cases ht : r.isRange = true
      · exact .inl ((match_complete ((complete_isRange r).1 ht) a).1 hm')
      · have ht' : r.isRange = false := Bool.not_eq_true _ ▸ ht
        have hsd := sound_read hl hf r hr
        have ha' : r.lo.getMaskSize = 128 ∨ StandsAlone l r := by
          rcases ha r hr with h | h
          · rcases sound_cases hsd ht' with ⟨_, h'⟩ | ⟨_, _, h'⟩
            · rw [h] at h'; cases h'
            · exact .inl h'
          · exact h
        rcases ha' with h | h
        · obtain ⟨k, hk, hnet⟩ := single_network hsd ht' (by omega)
          have : k = 128 := by omega
          rw [this] at hnet
          rw [hnet] at hm'
          unfold InNetwork at hm'
          simp only [Nat.sub_self, Nat.pow_zero, Nat.div_one] at hm'
          left
          rw [hm']
          exact ⟨Nat.le_refl _, (hf r hr).2⟩
        · exact .inr ⟨h, hm'⟩
  rw [h1, h3]
  cases b <;> cases c <;> simp_all

/-- A parser of lists of networks and of ranges, which merges them. -/
def mergeRangeParser : Parser := ParserOp.runAll [(sampleEnv, .setAllow 6 true)] mergeParser

/-- How many ranges there are, if none of them is empty and those without a first address have no mask. -/
def rangesFrom (r : Res (List Range)) : Nat :=
  match r with
  | .ok l => if l.all (fun r => (r.hasFrom || r.lo.getMaskSize == 128) && decide (first r ≤ last r)) then l.length else 0
  | _ => 0

theorem rangesFrom_elim {x : Res (List Range)} {n : Nat} (h : rangesFrom x = n + 1) :
    ∃ l, x = .ok l ∧ l.length = n + 1 ∧ ∀ r ∈ l, (r.hasFrom = true ∨ r.lo.getMaskSize = 128) ∧ first r ≤ last r := by
  cases x with
  | throw e => cases h
  | ub w => cases h
  | ok l =>
    unfold rangesFrom at h
    dsimp only at h
    split at h
    · rename_i hl
      exact ⟨l, rfl, h, fun r hr => by simpa using List.all_eq_true.1 hl r hr⟩
    · cases h

/-- C104_exact and C104_never_more on a range which touches a network: of the network only its first address is kept. -/
theorem C104_network_beside_range : ∃ l l',
    (Parser.parse sampleEnv "10.0.0.9-10.0.0.255,10.0.1.0/24".toList (unsortedOf mergeRangeParser)).2 = .ok l
    ∧ (Parser.parse sampleEnv "10.0.0.9-10.0.0.255,10.0.1.0/24".toList mergeRangeParser).2 = .ok l'
    ∧ l.length = 2 ∧ l'.length = 1
    ∧ (∀ a, addressMatchRanges l' a = .ok true → addressMatchRanges l a = .ok true)
    ∧ (∀ a, addressMatchRanges l' a = .ok true ↔ KeptBy l a) := by
  obtain ⟨l, h1, h2, h3⟩ := rangesFrom_elim (n := 1)
    (by decide +kernel : rangesFrom (Parser.parse sampleEnv "10.0.0.9-10.0.0.255,10.0.1.0/24".toList (unsortedOf mergeRangeParser)).2 = 2)
  obtain ⟨l', h4, h5, _⟩ := rangesFrom_elim (n := 0)
    (by decide +kernel : rangesFrom (Parser.parse sampleEnv "10.0.0.9-10.0.0.255,10.0.1.0/24".toList mergeRangeParser).2 = 1)
  refine ⟨l, l', h1, h4, h2, h5, C104_never_more _ _ _ (by decide) l l' h1 h3 h4, fun a => ?_⟩
  obtain ⟨b, j1, j2⟩ := C104_exact _ _ _ (by decide) l l' h1 h3 h4 a
  rw [j1, ← j2]
  exact ⟨fun h => by injection h, fun h => by rw [h]⟩

/-- The network of that text is matched before it is merged, and no longer afterwards. -/
theorem C104_loses_network :
    resultMatches (Parser.parse sampleEnv "10.0.0.9-10.0.0.255,10.0.1.0/24".toList (unsortedOf mergeRangeParser)).2 (sampleV4 10 0 1 5) = some true
    ∧ resultMatches (Parser.parse sampleEnv "10.0.0.9-10.0.0.255,10.0.1.0/24".toList mergeRangeParser).2 (sampleV4 10 0 1 5) = some false
    ∧ resultMatches (Parser.parse sampleEnv "10.0.0.9-10.0.0.255,10.0.1.0/24".toList mergeRangeParser).2 (sampleV4 10 0 1 0) = some true := by
  decide +kernel

/-- C104_unchanged on two ranges which overlap and an address which touches them. -/
example : ∃ l l',
    (Parser.parse sampleEnv "10.0.0.9-10.0.0.20,10.0.0.15-10.0.0.30,10.0.0.31".toList (unsortedOf mergeRangeParser)).2 = .ok l
    ∧ (Parser.parse sampleEnv "10.0.0.9-10.0.0.20,10.0.0.15-10.0.0.30,10.0.0.31".toList mergeRangeParser).2 = .ok l'
    ∧ l.length = 3 ∧ l'.length = 1 ∧ ∀ a, addressMatchRanges l' a = addressMatchRanges l a := by
  obtain ⟨l, h1, h2, h3⟩ := rangesFrom_elim (n := 2)
    (by decide +kernel : rangesFrom (Parser.parse sampleEnv "10.0.0.9-10.0.0.20,10.0.0.15-10.0.0.30,10.0.0.31".toList (unsortedOf mergeRangeParser)).2 = 3)
  obtain ⟨l', h4, h5, _⟩ := rangesFrom_elim (n := 0)
    (by decide +kernel : rangesFrom (Parser.parse sampleEnv "10.0.0.9-10.0.0.20,10.0.0.15-10.0.0.30,10.0.0.31".toList mergeRangeParser).2 = 1)
  refine ⟨l, l', h1, h4, h2, h5, C104_unchanged _ _ _ (by decide) l l' h1 h3 ?_ h4⟩
  have hall : (match (Parser.parse sampleEnv "10.0.0.9-10.0.0.20,10.0.0.15-10.0.0.30,10.0.0.31".toList (unsortedOf mergeRangeParser)).2 with
      | .ok l => l.all fun r => r.hasTo || r.lo.getMaskSize == 128
      | _ => false) = true := by decide +kernel
  rw [h1] at hall
  intro r hr
  have := List.all_eq_true.1 hall r hr
  rcases Bool.or_eq_true _ _ |>.mp this with h | h
  · exact .inl h
  · exact .inr (.inl (by simpa using h))

/-- C104_exact with a range which has no first address: it is the same address as the one of the network, which is kept. -/
example : ∃ l l',
    (Parser.parse sampleEnv "-10.0.0.1,10.0.0.1/24".toList (unsortedOf mergeRangeParser)).2 = .ok l
    ∧ (Parser.parse sampleEnv "-10.0.0.1,10.0.0.1/24".toList mergeRangeParser).2 = .ok l'
    ∧ l.length = 2 ∧ l'.length = 1 ∧ (∀ a, addressMatchRanges l' a = .ok true ↔ KeptBy l a) := by
  obtain ⟨l, h1, h2, h3⟩ := rangesFrom_elim (n := 1)
    (by decide +kernel : rangesFrom (Parser.parse sampleEnv "-10.0.0.1,10.0.0.1/24".toList (unsortedOf mergeRangeParser)).2 = 2)
  obtain ⟨l', h4, h5, _⟩ := rangesFrom_elim (n := 0)
    (by decide +kernel : rangesFrom (Parser.parse sampleEnv "-10.0.0.1,10.0.0.1/24".toList mergeRangeParser).2 = 1)
  refine ⟨l, l', h1, h4, h2, h5, fun a => ?_⟩
  obtain ⟨b, j1, j2⟩ := C104_exact _ _ _ (by decide) l l' h1 h3 h4 a
  rw [j1, ← j2]
  exact ⟨fun h => by injection h, fun h => by rw [h]⟩

end Verif
