import Verif.Props.ParserSort

/-!
# Property C45: the required address and port
-/

namespace Verif

open Spec

/-! ### Lemmas -/

theorem mem_orderedInsert {lt : Range → Range → Res Bool} {a r : Range} {l : List Range}
    (h : r ∈ Parser.orderedInsert lt a l) : r = a ∨ r ∈ l := by
  induction l with
  | nil => rw [Parser.orderedInsert, List.mem_singleton] at h; exact .inl h
  | cons b l ih =>
    rw [Parser.orderedInsert] at h
    split at h
    · rcases List.mem_cons.1 h with h | h
      · exact .inr (h ▸ List.mem_cons_self ..)
      · exact (ih h).imp id (List.mem_cons_of_mem _)
    · exact List.mem_cons.1 h

theorem mem_stableSort {lt : Range → Range → Res Bool} {l l' : List Range} (h : Parser.stableSort lt l = .ok l') {r : Range}
    (hr : r ∈ l') : r ∈ l := by
  rw [Parser.stableSort] at h
  split at h
  · cases h
    clear * - hr
    induction l with
    | nil => exact hr
    | cons b l ih =>
      rw [List.foldr_cons] at hr
      rcases mem_orderedInsert hr with hr | hr
      · exact hr ▸ List.mem_cons_self ..
      · exact List.mem_cons_of_mem _ (ih hr)
  · cases h

theorem withMaskCount_same {n : Int} {a b : Addr} (h : Range.withMaskCount n a = .ok b) : Parser.SameSource a b := by
  rw [Range.withMaskCount, Addr.setMaskCount] at h
  by_cases hc : n < (if a.isIpv4 = true then 96 else 0) ∨ n > 128
  · rw [if_pos hc] at h; cases h
  · rw [if_neg hc] at h; cases h; exact ⟨rfl, rfl, rfl, rfl⟩

section

variable {env : ParseEnv} {c : Config} {inp : Str}

theorem source_fromOrTo {r : Range} (h : Parser.Bounds env c inp r) : Source env c inp r.fromOrTo := by
  rw [Range.fromOrTo]
  split
  · exact h.2.1 (by assumption)
  · exact h.2.2 (h.1.resolve_left (by assumption))

theorem source_toOrFrom {r : Range} (h : Parser.Bounds env c inp r) : Source env c inp r.toOrFrom := by
  rw [Range.toOrFrom]
  split
  · exact h.2.2 (by assumption)
  · exact h.2.1 (h.1.resolve_right (by assumption))

/-- A union takes its bounds from the ranges. -/
theorem bounds_union {r s u : Range} (hr : Parser.Bounds env c inp r) (hs : Parser.Bounds env c inp s)
    (h : r.unionIfPossible s = .ok u) (hu : u.isDefined = true) : Parser.Bounds env c inp u := by
  rw [Range.unionIfPossible] at h
  by_cases h0 : (!r.isDefined && !s.isDefined) = true
  · rw [if_pos h0] at h; cases h; cases hu
  rw [if_neg h0] at h
  dsimp only at h
  generalize hb : (Addr.le r.fromOrTo s.toOrFrom && Addr.ge r.toOrFrom s.fromOrTo
    || Addr.ge r.toOrFrom s.fromOrTo && Addr.le r.fromOrTo s.toOrFrom
    || r.fromOrTo.isPrevious s.toOrFrom || r.toOrFrom.isNext s.fromOrTo) = b at h
  cases b with
  | false => rw [if_neg (by decide)] at h; cases h; cases hu
  | true =>
    rw [if_pos rfl] at h
    have hlo : Source env c inp (if Addr.lt r.fromOrTo s.fromOrTo = true then r.fromOrTo else s.fromOrTo) := by
      split
      · exact source_fromOrTo hr
      · exact source_fromOrTo hs
    have hhi : Source env c inp (if Addr.gt r.toOrFrom s.toOrFrom = true then r.toOrFrom else s.toOrFrom) := by
      split
      · exact source_toOrFrom hr
      · exact source_toOrFrom hs
    generalize (if Addr.lt r.fromOrTo s.fromOrTo = true then r.fromOrTo else s.fromOrTo) = x at h hlo
    generalize (if Addr.gt r.toOrFrom s.toOrFrom = true then r.toOrFrom else s.toOrFrom) = y at h hhi
    cases h1 : Range.withMaskCount (min r.lo.getMaskSize s.lo.getMaskSize) x with
    | throw e => rw [h1] at h; cases h
    | ub w => rw [h1] at h; cases h
    | ok lo =>
      rw [h1] at h
      cases h2 : Range.withMaskCount (min r.hi.getMaskSize s.hi.getMaskSize) y with
      | throw e => rw [h2] at h; cases h
      | ub w => rw [h2] at h; cases h
      | ok hi =>
        rw [h2] at h
        simp only [Res.bind_ok] at h
        have hlo' := Parser.source_congr hlo (withMaskCount_same h1)
        have hhi' := Parser.source_congr hhi (withMaskCount_same h2)
        split at h
        · cases h; exact ⟨.inl rfl, fun _ => hlo', fun _ => hhi'⟩
        · cases h; exact ⟨.inl rfl, fun _ => hlo', fun h => (nomatch h)⟩

theorem bounds_mergeLoop (cur : Range) (l : List Range) (hc : Parser.Bounds env c inp cur)
    (hl : ∀ r ∈ l, Parser.Bounds env c inp r) {l' : List Range} (h : Parser.mergeLoop cur l = .ok l') :
    ∀ r ∈ l', Parser.Bounds env c inp r := by
  induction l generalizing cur l' with
  | nil =>
    cases h
    intro r hr
    rw [List.mem_singleton] at hr
    exact hr ▸ hc
  | cons next l ih =>
    have hn := hl next (List.mem_cons_self ..)
    have hl' : ∀ r ∈ l, Parser.Bounds env c inp r := fun r hr => hl r (List.mem_cons_of_mem _ hr)
    rw [Parser.mergeLoop] at h
    cases hu : cur.unionIfPossible next with
    | throw e => rw [hu] at h; cases h
    | ub w => rw [hu] at h; cases h
    | ok u =>
      rw [hu] at h
      simp only [Res.bind_ok] at h
      split at h
      · rename_i hd
        rw [Bool.and_eq_true] at hd
        exact ih u (bounds_union hc hn hu hd.1) hl' h
      · cases h2 : Parser.mergeLoop next l with
        | throw e => rw [h2] at h; cases h
        | ub w => rw [h2] at h; cases h
        | ok l2 =>
          rw [h2] at h
          cases h
          intro r hr
          rcases List.mem_cons.1 hr with hr | hr
          · exact hr ▸ hc
          · exact ih next hn hl' h2 r hr

theorem bounds_sortResult {s : BitVec 64} {l l' : List Range} (hl : ∀ r ∈ l, Parser.Bounds env c inp r)
    (h : Parser.sortResult s l = .ok l') : ∀ r ∈ l', Parser.Bounds env c inp r := by
  rw [sortResult_eq] at h
  have hl1 : ∀ l1, (if s &&& (SORT_FULL ||| SORT_MERGE) ≠ 0 then Parser.stableSort Range.lt l else .ok l) = .ok l1 →
      ∀ r ∈ l1, Parser.Bounds env c inp r := by
    intro l1 h1 r hr
    split at h1
    · exact hl r (mem_stableSort h1 hr)
    · cases h1; exact hl r hr
  generalize (if s &&& (SORT_FULL ||| SORT_MERGE) ≠ 0 then Parser.stableSort Range.lt l else .ok l) = x at h hl1
  cases x with
  | throw e => cases h
  | ub w => cases h
  | ok l1 =>
    have hl1 := hl1 l1 rfl
    simp only [Res.bind_ok] at h
    cases h2 : mergeStep s l1 with
    | throw e => rw [h2] at h; cases h
    | ub w => rw [h2] at h; cases h
    | ok l2 =>
      rw [h2] at h
      simp only [Res.bind_ok] at h
      have hl2 : ∀ r ∈ l2, Parser.Bounds env c inp r := by
        rw [mergeStep] at h2
        split at h2
        · cases l1 with
          | nil => cases h2; exact fun r hr => (nomatch hr)
          | cons a l1 =>
            exact bounds_mergeLoop a l1 (hl1 a (List.mem_cons_self ..)) (fun r hr => hl1 r (List.mem_cons_of_mem _ hr)) h2
        · cases h2; exact hl1
      intro r hr
      apply hl2
      rw [familyStep] at h
      split at h
      · exact mem_stableSort h hr
      · split at h
        · exact mem_stableSort h hr
        · cases h; exact hr

end

/-! ### C45 -/

/-- Every range returned is defined and each of its bounds is denoted by texts of the input, or by the defaults where they
may be used. -/
theorem C45_sources (env : ParseEnv) (inp : Str) (p : Parser) (l : List Range) (h : (Parser.parse env inp p).2 = .ok l) :
    ∀ r ∈ l, Defined r ∧ (r.hasFrom = true → Source env p.config inp r.lo) ∧ (r.hasTo = true → Source env p.config inp r.hi) := by
  rw [parse_eq, PM.bind_def] at h
  have hpost := (Parser.post_parseUnsorted (c := p.config) env inp p rfl).2
  rcases hm : Parser.parseUnsorted env inp p with ⟨q, x⟩
  rw [hm] at h hpost
  cases x with
  | throw e => cases h
  | ub w => cases h
  | ok l0 => exact bounds_sortResult (hpost l0 rfl) h

/-- With `ALLOW_REQUIRED_ADDRESS` every bound is the address a non-empty part of the input writes (or what the name service
answers about it). -/
theorem C45_required_address (env : ParseEnv) (inp : Str) (p : Parser) (l : List Range)
    (hreq : p.config.flags .requiredAddress = true) (h : (Parser.parse env inp p).2 = .ok l) :
    ∀ r ∈ l, ∀ a, (r.hasFrom = true ∧ a = r.lo) ∨ (r.hasTo = true ∧ a = r.hi) →
      ∃ t q, t ≠ [] ∧ t <:+: inp ∧ Denotes env p.config t q a := by
  intro r hr a ha
  obtain ⟨_, h1, h2⟩ := C45_sources env inp p l h r hr
  have : Source env p.config inp a := by
    rcases ha with ⟨h3, h4⟩ | ⟨h3, h4⟩
    · exact h4 ▸ h1 h3
    · exact h4 ▸ h2 h3
  obtain ⟨q, h3, _, h5, _⟩ := this
  rcases h3 with h3 | h3
  · exact ⟨_, q, h3.1, h3.2, h5⟩
  · rw [hreq] at h3; cases h3.1

/-- With `ALLOW_REQUIRED_PORT` every bound carries a port which a non-empty part of the input, after a colon, writes. -/
theorem C45_required_port (env : ParseEnv) (inp : Str) (p : Parser) (l : List Range)
    (hreq : p.config.flags .requiredPort = true) (h : (Parser.parse env inp p).2 = .ok l) :
    ∀ r ∈ l, ∀ a, (r.hasFrom = true ∧ a = r.lo) ∨ (r.hasTo = true ∧ a = r.hi) →
      a.portDefined = true ∧ ∃ t q, q ≠ [] ∧ ':' :: q <:+: inp ∧ Denotes env p.config t q a := by
  intro r hr a ha
  obtain ⟨_, h1, h2⟩ := C45_sources env inp p l h r hr
  have : Source env p.config inp a := by
    rcases ha with ⟨h3, h4⟩ | ⟨h3, h4⟩
    · exact h4 ▸ h1 h3
    · exact h4 ▸ h2 h3
  obtain ⟨q, _, h4, h5, _⟩ := this
  rcases h4 with h4 | h4
  · exact ⟨h4.1, _, q, h4.2.1, h4.2.2, h5⟩
  · rw [hreq] at h4; cases h4.2.1

end Verif
