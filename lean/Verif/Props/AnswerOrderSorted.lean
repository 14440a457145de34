import Verif.Props.AnswerOrderAny
import Verif.Props.EntryOrderOne

/-! C161: the order in which the name service gives its answers, for parsers which sort or merge what they read (addr_parser.cpp:1357-1425). -/

namespace Verif

open Spec

/-- C161: for a parser which sorts without merging, the order of the answers has no effect on the ranges returned, except for their order, nor on
the number of errors; with `SORT_FULL` not even on the order of the bounds of the ranges which are not empty. -/
theorem C161_sorted (env1 env2 : ParseEnv) (p : Parser) (inp : Str) (hl : p.config.flags .addressLookup = true)
    (hr : p.config.flags .addressRange = false) (hm : p.config.flags .mask = true → p.config.flags .addressMask = false)
    (hu : p.config.sort &&& SORT_MERGE = 0) (hs : SafeAnswers env1) (he : EachAnswer Turned env1 env2) :
    ∃ m1 m2, (Parser.parse env1 inp p).2 = .ok m1 ∧ (Parser.parse env2 inp p).2 = .ok m2 ∧ m1.Perm m2
      ∧ (p.config.sort &&& SORT_FULL ≠ 0 → intervals m1 = intervals m2)
      ∧ (Parser.parse env1 inp p).1.getErrorCount = (Parser.parse env2 inp p).1.getErrorCount
      ∧ ∀ a : Addr, addressMatchRanges m1 a = addressMatchRanges m2 a := by
  obtain ⟨l1, l2, h1, h2, h3, h4⟩ := C161_parse env1 env2 (unsortedOf p) inp (by rw [unsortedOf_flags]; exact hl)
    (by rw [unsortedOf_flags]; exact hr) (by rw [unsortedOf_flags]; exact hm) (unsortedOf_unsorted p) hs he
  obtain ⟨m1, g1, g2, _⟩ := C43_sort_permutes env1 inp p hu l1 h1
  obtain ⟨m2, g3, g4, _⟩ := C43_sort_permutes env2 inp p hu l2 h2
  have hp : m1.Perm m2 := g2.trans (h3.trans g4.symm)
  obtain ⟨_, e1, _⟩ := parse_sort env1 inp p
  obtain ⟨_, e2, _⟩ := parse_sort env2 inp p
  refine ⟨m1, m2, g1, g3, hp, fun hf => ?_, ?_, fun a => C35_order_irrelevant m1 m2 a fun _ => hp.mem_iff⟩
  · obtain ⟨_, s1⟩ := sorted_intervals hu hf h1 g1
    obtain ⟨_, s2⟩ := sorted_intervals hu hf h2 g3
    refine List.Perm.eq_of_pairwise (fun a b _ _ hab hba => ?_) s1 s2 ((hp.filter _).map _)
    unfold SortedBefore at hab hba
    exact Prod.ext (by omega) (by omega)
  · rw [Parser.getErrorCount, Parser.getErrorCount, e1, e2]
    exact h4

/-- C161: for a parser which merges, the order of the answers decides neither whether the call throws nor what the merged list is and matches. -/
theorem C161_merged (env1 env2 : ParseEnv) (p : Parser) (inp : Str) (hl : p.config.flags .addressLookup = true)
    (hr : p.config.flags .addressRange = false) (hm : p.config.flags .mask = true → p.config.flags .addressMask = false)
    (hu : p.config.sort &&& SORT_MERGE ≠ 0) (hs : SafeAnswers env1) (he : EachAnswer Turned env1 env2) :
    ((Parser.parse env1 inp p).2 = .throw .outOfRange ∧ (Parser.parse env2 inp p).2 = .throw .outOfRange)
      ∨ ∃ m1 m2, (Parser.parse env1 inp p).2 = .ok m1 ∧ (Parser.parse env2 inp p).2 = .ok m2 ∧ intervals m1 = intervals m2
        ∧ ∀ a : Addr, addressMatchRanges m1 a = addressMatchRanges m2 a := by
  obtain ⟨l, l2, h0, h2, h3, _⟩ := C161_parse env1 env2 (unsortedOf p) inp (by rw [unsortedOf_flags]; exact hl)
    (by rw [unsortedOf_flags]; exact hr) (by rw [unsortedOf_flags]; exact hm) (unsortedOf_unsorted p) hs he
  have hf := one_read hr h0
  have hf' : ∀ r ∈ l2, (r.hasFrom = true ∨ r.lo.getMaskSize = 128) ∧ first r ≤ last r := fun r hr => hf r (h3.mem_iff.2 hr)
  obtain ⟨t1, t2⟩ := C103_throws_iff env1 inp p hu l h0 fun r hr => (hf r hr).2
  obtain ⟨t3, t4⟩ := C103_throws_iff env2 inp p hu l2 h2 fun r hr => (hf' r hr).2
  by_cases ha : MasksAgree l
  · obtain ⟨m1, hm1⟩ := t2.2 ha
    obtain ⟨m2, hm2⟩ := t4.2 ((masksAgree_perm h3).1 ha)
    refine .inr ⟨m1, m2, hm1, hm2, (C96_canonical env1 env2 p p inp inp hu hu ⟨rfl, rfl⟩ l l2 m1 m2 h0 h2 hm1 hm2).2 fun v => ?_, fun a => ?_⟩
    · unfold Holding
      simp only [h3.mem_iff]
    · obtain ⟨b, k1, k2⟩ := C104_exact env1 inp p hu l m1 h0 hf hm1 a
      obtain ⟨b', k3, k4⟩ := C104_exact env2 inp p hu l2 m2 h2 hf' hm2 a
      rw [k1, k3]
      exact congrArg Res.ok (Bool.eq_iff_iff.2 (k2.trans ((keptBy_perm h3 a).trans k4.symm)))
  · exact .inl ⟨t1.2 ha, t3.2 fun h => ha ((masksAgree_perm h3).2 h)⟩

/-! ### Examples -/

/-- A list of hosts to sort or to merge. -/
def hostSorter (sort : BitVec 64) : Parser :=
  ParserOp.runAll [(sampleEnv, .setAllow 2 true), (sampleEnv, .setSortOrder sort)] Parser.create

/-- C161_sorted: an error and a host with two answers. -/
example : ∃ m1 m2, (Parser.parse (twiceEnv false) "nowhere,host".toList (hostSorter SORT_FULL)).2 = .ok m1
    ∧ (Parser.parse (twiceEnv true) "nowhere,host".toList (hostSorter SORT_FULL)).2 = .ok m2 ∧ intervals m1 = intervals m2 := by
  obtain ⟨m1, m2, h1, h2, _, h3, _⟩ := C161_sorted (twiceEnv false) (twiceEnv true) (hostSorter SORT_FULL) "nowhere,host".toList (by decide)
    (by decide) (by decide) (by decide) twiceEnv_safe twiceEnv_turned
  exact ⟨m1, m2, h1, h2, h3 (by decide)⟩

/-- C161_merged: the two answers become one range. -/
example : ∃ m1 m2, (Parser.parse (twiceEnv false) "nowhere,host".toList (hostSorter SORT_MERGE)).2 = .ok m1
    ∧ (Parser.parse (twiceEnv true) "nowhere,host".toList (hostSorter SORT_MERGE)).2 = .ok m2 ∧ intervals m1 = intervals m2 := by
  rcases C161_merged (twiceEnv false) (twiceEnv true) (hostSorter SORT_MERGE) "nowhere,host".toList (by decide) (by decide) (by decide) (by decide)
    twiceEnv_safe twiceEnv_turned with ⟨h3, _⟩ | ⟨m1, m2, h3, h4, h5, _⟩
  · exact absurd h3 (by decide +kernel)
  · exact ⟨m1, m2, h3, h4, h5⟩

end Verif
