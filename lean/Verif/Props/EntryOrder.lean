import Verif.Props.MergeMatches

/-!
# Property C114: the order of the entries of a list
-/

namespace Verif

open Spec

namespace Parser

theorem each_read {env : ParseEnv} {c : Config} : ∀ (es : List Str) (q : Parser) (l : List Range), q.config = c →
    (seqEntries env es q).2 = .ok l → ∀ e ∈ es, ∃ d : List Str × List Range, Logs c (parseCidr env e []) d.1 (.ok d.2)
  | [], _, _, _, _, _, he => nomatch he
  | e :: es, q, l, hq, h, e', he' => by
    obtain ⟨errs, x, hlog⟩ := logging_parseCidr env c e []
    rw [seqEntries] at h
    have h1 := hlog q hq
    cases x with
    | throw ex => rw [PM.bind_of_throw h1] at h; cases h
    | ub w => rw [PM.bind_of_ub h1] at h; cases h
    | ok k =>
      rw [PM.bind_of_ok h1, prepend] at h
      rcases List.mem_cons.1 he' with rfl | he'
      · exact ⟨(errs, k), hlog⟩
      · rcases hr : seqEntries env es (emitAll errs q) with ⟨q', y⟩
        cases y with
        | throw ex => rw [PM.bind_of_throw hr] at h; cases h
        | ub w => rw [PM.bind_of_ub hr] at h; cases h
        | ok l' => exact each_read es (emitAll errs q) l' hq (by rw [hr]) e' he'

theorem all_read {env : ParseEnv} {c : Config} {g : Str → List Str × List Range} (es : List Str)
    (h : ∀ e ∈ es, Logs c (parseCidr env e []) (g e).1 (.ok (g e).2)) :
    Logs c (seqEntries env es) (es.flatMap fun e => (g e).1) (.ok (es.flatMap fun e => (g e).2)) := by
  induction es with
  | nil => exact logs_pure c []
  | cons e es ih =>
    rw [seqEntries, List.flatMap_cons, List.flatMap_cons]
    refine logs_bind (h e List.mem_cons_self) ?_
    have := logs_bind (f := fun l => (Pure.pure ((g e).2 ++ l) : PM (List Range))) (ih fun e' he' => h e' (List.mem_cons_of_mem _ he'))
      (logs_pure c ((g e).2 ++ es.flatMap fun e => (g e).2))
    rw [List.append_nil] at this
    exact this

end Parser

/-- Two texts with the same entries in another order: the same ranges and the same errors, in another order. -/
theorem unsorted_order (env : ParseEnv) (p : Parser) (inp inp' : Str) (hl : ListMode p) (he : (pieces p inp).Perm (pieces p inp'))
    (l : List Range) (h : (Parser.parse env inp (unsortedOf p)).2 = .ok l) :
    ∃ (errs errs' : List Str) (l' : List Range), Parser.parse env inp (unsortedOf p) = (Parser.emitAll errs (unsortedOf p), .ok l)
      ∧ Parser.parse env inp' (unsortedOf p) = (Parser.emitAll errs' (unsortedOf p), .ok l') ∧ errs.Perm errs' ∧ l.Perm l' := by
  have hlm : ListMode (unsortedOf p) := by rw [ListMode, unsortedOf_flags]; exact hl
  rw [parse_unsorted env _ _ hlm (unsortedOf_unsorted p), parse_unsorted env _ _ hlm (unsortedOf_unsorted p), pieces_eq, pieces_eq, pieces_unsorted,
    pieces_unsorted]
  rw [parse_unsorted env _ _ hlm (unsortedOf_unsorted p), pieces_eq, pieces_unsorted] at h
  have h1 := Parser.each_read _ _ _ rfl h
  have h2 : ∃ g : Str → List Str × List Range, ∀ e ∈ pieces p inp, Parser.Logs (unsortedOf p).config (Parser.parseCidr env e []) (g e).1 (.ok (g e).2) :=
    ⟨fun e => open Classical in if hm : e ∈ pieces p inp then Classical.choose (h1 e hm) else ([], []), fun e hm => by
      dsimp only
      rw [dif_pos hm]
      exact Classical.choose_spec (h1 e hm)⟩
  obtain ⟨g, hg⟩ := h2
  have a1 := Parser.all_read (pieces p inp) hg _ rfl
  have a2 := Parser.all_read (pieces p inp') (fun e hm => hg e (he.mem_iff.2 hm)) _ rfl
  rw [a1] at h
  refine ⟨_, _, _, ?_, a2, he.flatMap_right _, ?_⟩
  · rw [a1]
    exact Prod.ext rfl h
  · have : ((pieces p inp).flatMap fun e => (g e).2) = l := Res.ok.inj h
    rw [← this]
    exact he.flatMap_right _

/-- The order of the ranges which are not empty when they are sorted: by group, then by first address, the longest one first. -/
def SortedBefore (sort : BitVec 64) (a b : Nat × Nat) : Prop :=
  groupOf sort a < groupOf sort b ∨ (groupOf sort a = groupOf sort b ∧ (a.1 < b.1 ∨ (a.1 = b.1 ∧ b.2 ≤ a.2)))

theorem sorted_intervals {env : ParseEnv} {inp : Str} {p : Parser} (hm : p.config.sort &&& SORT_MERGE = 0) (hf : p.config.sort &&& SORT_FULL ≠ 0)
    {l m : List Range} (hl : (Parser.parse env inp (unsortedOf p)).2 = .ok l) (hr : (Parser.parse env inp p).2 = .ok m) :
    m.Perm l ∧ (intervals m).Pairwise (SortedBefore p.config.sort) := by
  obtain ⟨m', h1, h2, h3, h4, _⟩ := C43_sort_permutes env inp p hm l hl
  rw [hr] at h1
  cases h1
  refine ⟨h2, pairwise_intervals (h3.and (h4 hf)) fun a b hab ha hb => ?_⟩
  unfold SortedBefore
  rw [groupOf_eq, groupOf_eq]
  by_cases e : group p.config.sort a = group p.config.sort b
  · exact .inr ⟨e, (hab.2 e).2 hb⟩
  · exact .inl (Nat.lt_of_le_of_ne hab.1 e)

/-- C114: in a list without `SORT_MERGE`, the order of the entries has no effect on the ranges returned and the errors reported, except for
their order; with `SORT_FULL` not even on the order of the bounds of the ranges which are not empty. -/
theorem C114_sorted (env : ParseEnv) (p : Parser) (inp inp' : Str) (hl : ListMode p) (hm : p.config.sort &&& SORT_MERGE = 0)
    (he : (pieces p inp).Perm (pieces p inp')) (m : List Range) (h : (Parser.parse env inp p).2 = .ok m) :
    ∃ (errs errs' : List Str) (m' : List Range), (Parser.parse env inp' p).2 = .ok m' ∧ m'.Perm m
      ∧ (p.config.sort &&& SORT_FULL ≠ 0 → intervals m' = intervals m)
      ∧ errs.Perm errs' ∧ (Parser.parse env inp p).1.errorMessages = p.errorMessages ++ errs.flatMap (· ++ ['\n'])
      ∧ (Parser.parse env inp' p).1.errorMessages = p.errorMessages ++ errs'.flatMap (· ++ ['\n'])
      ∧ (Parser.parse env inp p).1.getErrorCount = (Parser.parse env inp' p).1.getErrorCount
      ∧ ∀ a : Addr, addressMatchRanges m' a = addressMatchRanges m a := by
  obtain ⟨l, h0⟩ := unsorted_read h
  obtain ⟨errs, errs', l', h1, h2, h3, h4⟩ := unsorted_order env p inp inp' hl he l h0
  obtain ⟨n, g1, g2, _⟩ := C43_sort_permutes env inp p hm l h0
  rw [h] at g1
  cases g1
  obtain ⟨m', g3, g4, _⟩ := C43_sort_permutes env inp' p hm l' (by rw [h2])
  have hp : m'.Perm m := g4.trans (h4.symm.trans g2.symm)
  obtain ⟨e1, e2, _⟩ := parse_sort env inp p
  obtain ⟨e3, e4, _⟩ := parse_sort env inp' p
  rw [h1] at e1 e2
  rw [h2] at e3 e4
  obtain ⟨u1, u2⟩ := unsortedOf_error p
  refine ⟨errs, errs', m', g3, hp, fun hf => ?_, h3, ?_, ?_, ?_, fun a => ?_⟩
  · obtain ⟨_, s1⟩ := sorted_intervals hm hf h0 h
    obtain ⟨_, s2⟩ := sorted_intervals hm hf (by rw [h2]) g3
    refine List.Perm.eq_of_pairwise (fun a b _ _ hab hba => ?_) s2 s1 ((hp.filter _).map _)
    unfold SortedBefore at hab hba
    exact Prod.ext (by omega) (by omega)
  · rw [Parser.errorMessages, e1]
    show (unsortedOf p).error ++ _ = _
    rw [u1]
    rfl
  · rw [Parser.errorMessages, e3]
    show (unsortedOf p).error ++ _ = _
    rw [u1]
    rfl
  · rw [Parser.getErrorCount, Parser.getErrorCount, e2, e4]
    show (unsortedOf p).errorCount + _ = (unsortedOf p).errorCount + _
    rw [h3.length_eq]
  · obtain ⟨b, k1, k2⟩ := C35_any_range m' a
    obtain ⟨b', k3, k4⟩ := C35_any_range m a
    rw [k1, k3]
    refine congrArg Res.ok (Bool.eq_iff_iff.2 (k2.trans (Iff.trans ?_ k4.symm)))
    exact ⟨fun ⟨r, hr, hx⟩ => ⟨r, hp.mem_iff.1 hr, hx⟩, fun ⟨r, hr, hx⟩ => ⟨r, hp.mem_iff.2 hr, hx⟩⟩

/-- C114: with `SORT_MERGE`, when no range which was read is empty, the order of the entries decides neither whether the call throws nor what the
merged list is and matches. -/
theorem C114_merged_partial (env : ParseEnv) (p : Parser) (inp inp' : Str) (hl : ListMode p) (hm : p.config.sort &&& SORT_MERGE ≠ 0)
    (he : (pieces p inp).Perm (pieces p inp')) (l : List Range) (h0 : (Parser.parse env inp (unsortedOf p)).2 = .ok l)
    (hf : ∀ r ∈ l, (r.hasFrom = true ∨ r.lo.getMaskSize = 128) ∧ first r ≤ last r) :
    ((Parser.parse env inp p).2 = .throw .outOfRange ∧ (Parser.parse env inp' p).2 = .throw .outOfRange)
      ∨ ∃ m m', (Parser.parse env inp p).2 = .ok m ∧ (Parser.parse env inp' p).2 = .ok m' ∧ intervals m' = intervals m
        ∧ ∀ a : Addr, addressMatchRanges m' a = addressMatchRanges m a := by
  obtain ⟨errs, errs', l', h1, h2, h3, h4⟩ := unsorted_order env p inp inp' hl he l h0
  have h0' : (Parser.parse env inp' (unsortedOf p)).2 = .ok l' := by rw [h2]
  have hf' : ∀ r ∈ l', (r.hasFrom = true ∨ r.lo.getMaskSize = 128) ∧ first r ≤ last r := fun r hr => hf r (h4.mem_iff.2 hr)
  obtain ⟨t1, t2⟩ := C103_throws_iff env inp p hm l h0 fun r hr => (hf r hr).2
  obtain ⟨t3, t4⟩ := C103_throws_iff env inp' p hm l' h0' fun r hr => (hf' r hr).2
  by_cases ha : MasksAgree l
  · obtain ⟨m, hm1⟩ := t2.2 ha
    obtain ⟨m', hm2⟩ := t4.2 ((masksAgree_perm h4).1 ha)
    refine .inr ⟨m, m', hm1, hm2, (C96_entries env p inp inp' hl hm (fun e => he.mem_iff) m m' hm1 hm2).symm, fun a => ?_⟩
    obtain ⟨b, k1, k2⟩ := C104_exact env inp' p hm l' m' h0' hf' hm2 a
    obtain ⟨b', k3, k4⟩ := C104_exact env inp p hm l m h0 hf hm1 a
    rw [k1, k3]
    exact congrArg Res.ok (Bool.eq_iff_iff.2 (k2.trans ((keptBy_perm h4.symm a).trans k4.symm)))
  · exact .inl ⟨t1.2 ha, t3.2 fun h => ha ((masksAgree_perm h4).2 h)⟩

/-- C114: the order of the entries has no effect on what the list matches. -/
def C114_claim : Prop :=
  ∀ (env : ParseEnv) (p : Parser) (inp inp' : Str), ListMode p → (pieces p inp).Perm (pieces p inp') →
    ∀ m m' : List Range, (Parser.parse env inp p).2 = .ok m → (Parser.parse env inp' p).2 = .ok m' →
      ∀ a : Addr, addressMatchRanges m' a = addressMatchRanges m a

theorem resultMatches_elim {x : Res (List Range)} {a : Addr} {b : Bool} (h : resultMatches x a = some b) :
    ∃ m, x = .ok m ∧ addressMatchRanges m a = .ok b := by
  cases x with
  | throw e => cases h
  | ub w => cases h
  | ok l =>
    unfold resultMatches at h
    dsimp only at h
    split at h
    · rename_i c hc
      cases h
      exact ⟨l, rfl, hc⟩
    · cases h

/-- C114: it has one when ranges which are empty are merged. -/
theorem C114_claim_fails : ¬ C114_claim := by
  intro h
  have hp : (pieces mergeRangeParser "10.0.0.5/24,10.0.0.20-10.0.0.4,10.0.0.200-10.0.0.100".toList).Perm
      (pieces mergeRangeParser "10.0.0.5/24,10.0.0.200-10.0.0.100,10.0.0.20-10.0.0.4".toList) := by
    rw [show pieces mergeRangeParser "10.0.0.5/24,10.0.0.20-10.0.0.4,10.0.0.200-10.0.0.100".toList
        = ["10.0.0.5/24".toList, "10.0.0.20-10.0.0.4".toList, "10.0.0.200-10.0.0.100".toList] by decide +kernel,
      show pieces mergeRangeParser "10.0.0.5/24,10.0.0.200-10.0.0.100,10.0.0.20-10.0.0.4".toList
        = ["10.0.0.5/24".toList, "10.0.0.200-10.0.0.100".toList, "10.0.0.20-10.0.0.4".toList] by decide +kernel]
    decide
  obtain ⟨m, h1, h2⟩ := resultMatches_elim (b := false) (a := sampleV4 10 0 0 9)
    (by decide +kernel : resultMatches (Parser.parse sampleEnv "10.0.0.5/24,10.0.0.20-10.0.0.4,10.0.0.200-10.0.0.100".toList mergeRangeParser).2
      (sampleV4 10 0 0 9) = some false)
  obtain ⟨m', h3, h4⟩ := resultMatches_elim (b := true) (a := sampleV4 10 0 0 9)
    (by decide +kernel : resultMatches (Parser.parse sampleEnv "10.0.0.5/24,10.0.0.200-10.0.0.100,10.0.0.20-10.0.0.4".toList mergeRangeParser).2
      (sampleV4 10 0 0 9) = some true)
  have := h sampleEnv mergeRangeParser _ _ (by unfold ListMode; decide) hp m m' h1 h3 (sampleV4 10 0 0 9)
  rw [h2, h4] at this
  cases this

/-! ### Examples -/

/-- The bounds of the ranges which a call returned. -/
def boundsIn (r : Res (List Range)) : List (Nat × Nat) :=
  match r with
  | .ok l => l.map fun r => (first r, last r)
  | _ => []

/-- Without a sort order, the order of the entries is the one of the ranges. -/
theorem C114_unsorted :
    boundsIn (Parser.parse sampleEnv "10.0.0.2,10.0.0.1".toList (unsortedOf accessParser)).2
      ≠ boundsIn (Parser.parse sampleEnv "10.0.0.1,10.0.0.2".toList (unsortedOf accessParser)).2 := by
  decide +kernel

/-- C114_sorted on two texts with the same entries, one of which is wrong. -/
example : ∃ m', (Parser.parse sampleEnv "10.0.0.2, 10.0.0.1,x".toList accessParser).2 = .ok m'
    ∧ (Parser.parse sampleEnv "10.0.0.2, 10.0.0.1,x".toList accessParser).1.getErrorCount = 1 ∧ (intervals m').length = 2 := by
  have hp : (pieces accessParser "x,10.0.0.2, 10.0.0.1".toList).Perm (pieces accessParser "10.0.0.2, 10.0.0.1,x".toList) := by
    rw [show pieces accessParser "x,10.0.0.2, 10.0.0.1".toList = ["x".toList, "10.0.0.2".toList, " 10.0.0.1".toList] by decide +kernel,
      show pieces accessParser "10.0.0.2, 10.0.0.1,x".toList = ["10.0.0.2".toList, " 10.0.0.1".toList, "x".toList] by decide +kernel]
    decide
  obtain ⟨m, h1, h2⟩ : ∃ m, (Parser.parse sampleEnv "x,10.0.0.2, 10.0.0.1".toList accessParser).2 = .ok m ∧ (intervals m).length = 2 := by
    have h3 : ranges (Parser.parse sampleEnv "x,10.0.0.2, 10.0.0.1".toList accessParser).2 = 2 := by decide +kernel
    obtain ⟨m, h1, h2, h3⟩ := ranges_elim (n := 1) h3
    refine ⟨m, h1, ?_⟩
    rw [intervals, List.length_map, List.filter_eq_self.2 (fun r hr => by simpa using h3 r hr), h2]
  obtain ⟨_, _, m', g1, _, g2, _, _, _, g3, _⟩ := C114_sorted sampleEnv accessParser _ _ accessParser_reads.list (by decide) hp m h1
  refine ⟨m', g1, ?_, by rw [g2 (by decide), h2]⟩
  rw [← g3]
  decide +kernel

/-- C114_merged_partial on two networks and an address. -/
example : ∃ m', (Parser.parse sampleEnv "10.0.0.2,10.0.0.1/24".toList mergeParser).2 = .ok m' := by
  have hp : (pieces mergeParser "10.0.0.1/24,10.0.0.2".toList).Perm (pieces mergeParser "10.0.0.2,10.0.0.1/24".toList) := by
    rw [show pieces mergeParser "10.0.0.1/24,10.0.0.2".toList = ["10.0.0.1/24".toList, "10.0.0.2".toList] by decide +kernel,
      show pieces mergeParser "10.0.0.2,10.0.0.1/24".toList = ["10.0.0.2".toList, "10.0.0.1/24".toList] by decide +kernel]
    decide
  obtain ⟨l, h1, _, h2⟩ := rangesFrom_elim (n := 1)
    (by decide +kernel : rangesFrom (Parser.parse sampleEnv "10.0.0.1/24,10.0.0.2".toList (unsortedOf mergeParser)).2 = 2)
  rcases C114_merged_partial sampleEnv mergeParser _ _ mergeParser_reads.list (by decide) hp l h1 h2 with ⟨h3, _⟩ | ⟨m, m', _, h3, _⟩
  · exact absurd h3 (by decide +kernel)
  · exact ⟨m', h3⟩

end Verif
