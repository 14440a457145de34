import Verif.Props.EntryOrderOne

/-!
# Property C162: writing an entry of a list again
-/

namespace Verif

open Spec

/-- The two texts have the same entries, in any order and any number of times each. -/
def SameEntries (p : Parser) (inp inp' : Str) : Prop := ∀ e, e ∈ pieces p inp ↔ e ∈ pieces p inp'

theorem unsorted_repeat (env : ParseEnv) (p : Parser) (inp inp' : Str) (hl : ListMode p) (he : SameEntries p inp inp')
    (l : List Range) (h : (Parser.parse env inp (unsortedOf p)).2 = .ok l) :
    ∃ (errs errs' : List Str) (l' : List Range), Parser.parse env inp (unsortedOf p) = (Parser.emitAll errs (unsortedOf p), .ok l)
      ∧ Parser.parse env inp' (unsortedOf p) = (Parser.emitAll errs' (unsortedOf p), .ok l') ∧ (∀ e, e ∈ errs ↔ e ∈ errs') ∧ ∀ r, r ∈ l ↔ r ∈ l' := by
  have hlm : ListMode (unsortedOf p) := by rw [ListMode, unsortedOf_flags]; exact hl
  rw [parse_unsorted env _ _ hlm (unsortedOf_unsorted p), parse_unsorted env _ _ hlm (unsortedOf_unsorted p), pieces_eq, pieces_eq, pieces_unsorted,
    pieces_unsorted]
  rw [parse_unsorted env _ _ hlm (unsortedOf_unsorted p), pieces_eq, pieces_unsorted] at h
  have h1 := Parser.each_read _ _ _ rfl h
  have h2 : ∃ g : Str → List Str × List Range, ∀ e ∈ pieces p inp, Parser.Logs (unsortedOf p).config (Parser.parseCidr env e []) (g e).1 (.ok (g e).2) :=
    ⟨fun e => open Classical in if hm : e ∈ pieces p inp then Classical.choose (h1 e hm) else ([], []), fun e hm => by
      dsimp only
      rw [dif_pos hm]
      exact Classical.choose_spec (h1 e hm)⟩
  obtain ⟨g, hg⟩ := h2
  have a1 := Parser.all_read (pieces p inp) hg _ rfl
  have a2 := Parser.all_read (pieces p inp') (fun e hm => hg e ((he e).2 hm)) _ rfl
  have hmem (e : Str) : e ∈ pieces p inp ↔ e ∈ pieces p inp' := he e
  rw [a1] at h
  refine ⟨(pieces p inp).flatMap fun e => (g e).1, _, _, ?_, a2, fun e => ?_, fun r => ?_⟩
  · rw [a1]
    exact Prod.ext rfl h
  · simp only [List.mem_flatMap, hmem]
  · have : ((pieces p inp).flatMap fun e => (g e).2) = l := Res.ok.inj h
    rw [← this]
    simp only [List.mem_flatMap, hmem]

/-- C162: in a list which is not merged, writing entries again adds no range and no error which was not there, and the list matches the same
addresses. -/
theorem C162_not_merged (env : ParseEnv) (p : Parser) (inp inp' : Str) (hl : ListMode p) (hm : p.config.sort &&& SORT_MERGE = 0)
    (he : SameEntries p inp inp') (m : List Range) (h : (Parser.parse env inp p).2 = .ok m) :
    ∃ (errs errs' : List Str) (m' : List Range), (Parser.parse env inp' p).2 = .ok m' ∧ (∀ r, r ∈ m' ↔ r ∈ m) ∧ (∀ e, e ∈ errs ↔ e ∈ errs')
      ∧ (Parser.parse env inp p).1.errorMessages = p.errorMessages ++ errs.flatMap (· ++ ['\n'])
      ∧ (Parser.parse env inp' p).1.errorMessages = p.errorMessages ++ errs'.flatMap (· ++ ['\n'])
      ∧ ((Parser.parse env inp p).1.getErrorCount = p.getErrorCount ↔ (Parser.parse env inp' p).1.getErrorCount = p.getErrorCount)
      ∧ ∀ a : Addr, addressMatchRanges m' a = addressMatchRanges m a := by
  obtain ⟨l, h0⟩ := unsorted_read h
  obtain ⟨errs, errs', l', h1, h2, h3, h4⟩ := unsorted_repeat env p inp inp' hl he l h0
  obtain ⟨n, g1, g2, _⟩ := C43_sort_permutes env inp p hm l h0
  rw [h] at g1
  cases g1
  obtain ⟨m', g3, g4, _⟩ := C43_sort_permutes env inp' p hm l' (by rw [h2])
  have hp : ∀ r, r ∈ m' ↔ r ∈ m := fun r => g4.mem_iff.trans ((h4 r).symm.trans g2.mem_iff.symm)
  obtain ⟨e1, e2, _⟩ := parse_sort env inp p
  obtain ⟨e3, e4, _⟩ := parse_sort env inp' p
  rw [h1] at e1 e2
  rw [h2] at e3 e4
  obtain ⟨u1, u2⟩ := unsortedOf_error p
  refine ⟨errs, errs', m', g3, hp, h3, ?_, ?_, ?_, fun a => C35_order_irrelevant m' m a hp⟩
  · rw [Parser.errorMessages, e1]
    show (unsortedOf p).error ++ _ = _
    rw [u1]
    rfl
  · rw [Parser.errorMessages, e3]
    show (unsortedOf p).error ++ _ = _
    rw [u1]
    rfl
  · rw [Parser.getErrorCount, Parser.getErrorCount, Parser.getErrorCount, e2, e4]
    have k (es : List Str) : (Parser.emitAll es (unsortedOf p)).errorCount = p.errorCount ↔ es = [] := by
      show (unsortedOf p).errorCount + (es.length : Int) = p.errorCount ↔ es = []
      rw [u2, ← List.length_eq_zero_iff]
      omega
    rw [k, k, List.eq_nil_iff_forall_not_mem, List.eq_nil_iff_forall_not_mem]
    simp only [h3]

/-- C162: in a list which is merged, when no range which was read is empty and both calls return, writing entries again has no effect on the bounds
of the ranges and on what they match. -/
theorem C162_merged_partial (env : ParseEnv) (p : Parser) (inp inp' : Str) (hl : ListMode p) (hm : p.config.sort &&& SORT_MERGE ≠ 0)
    (he : SameEntries p inp inp') (l : List Range) (h0 : (Parser.parse env inp (unsortedOf p)).2 = .ok l)
    (hf : ∀ r ∈ l, (r.hasFrom = true ∨ r.lo.getMaskSize = 128) ∧ first r ≤ last r) (m m' : List Range)
    (h : (Parser.parse env inp p).2 = .ok m) (h' : (Parser.parse env inp' p).2 = .ok m') :
    intervals m' = intervals m ∧ ∀ a : Addr, addressMatchRanges m' a = addressMatchRanges m a := by
  obtain ⟨errs, errs', l', h1, h2, h3, h4⟩ := unsorted_repeat env p inp inp' hl he l h0
  have h0' : (Parser.parse env inp' (unsortedOf p)).2 = .ok l' := by rw [h2]
  have hf' : ∀ r ∈ l', (r.hasFrom = true ∨ r.lo.getMaskSize = 128) ∧ first r ≤ last r := fun r hr => hf r ((h4 r).2 hr)
  refine ⟨(C96_entries env p inp inp' hl hm he m m' h h').symm, fun a => ?_⟩
  obtain ⟨b, k1, k2⟩ := C104_exact env inp' p hm l' m' h0' hf' h' a
  obtain ⟨b', k3, k4⟩ := C104_exact env inp p hm l m h0 hf h a
  have hk : KeptBy l' a ↔ KeptBy l a := by simp only [KeptBy, StandsAlone, h4]
  rw [k1, k3]
  exact congrArg Res.ok (Bool.eq_iff_iff.2 (k2.trans (hk.trans k4.symm)))

/-- C162: the calls do return when each mask suits the addresses of its family (96 bits or more where an IPv4 address starts the run), however
often the entries are written. -/
theorem C162_returns (env : ParseEnv) (p : Parser) (inp inp' : Str) (hl : ListMode p) (hm : p.config.sort &&& SORT_MERGE ≠ 0)
    (he : SameEntries p inp inp') (l : List Range) (h0 : (Parser.parse env inp (unsortedOf p)).2 = .ok l) (hne : ∀ r ∈ l, first r ≤ last r)
    (hmask : ∀ r ∈ l, ∀ a, RunStarts l a r → leastBits a ≤ r.lo.getMaskSize) :
    (∃ m, (Parser.parse env inp p).2 = .ok m) ∧ ∃ m', (Parser.parse env inp' p).2 = .ok m' := by
  obtain ⟨errs, errs', l', h1, h2, h3, h4⟩ := unsorted_repeat env p inp inp' hl he l h0
  have h0' : (Parser.parse env inp' (unsortedOf p)).2 = .ok l' := by rw [h2]
  have key (L : List Range) (hL : ∀ r ∈ L, ∀ a, RunStarts L a r → leastBits a ≤ r.lo.getMaskSize) : MasksAgree L :=
    List.Pairwise.imp_of_mem (R := fun _ _ => True) (fun hr hs _ a k1 k2 => ⟨hL _ hr a k1, hL _ hs a k2⟩)
      (List.pairwise_of_forall fun _ _ => trivial)
  have hH : ∀ v, Holding l' v ↔ Holding l v := fun v => by simp only [Holding, h4]
  refine ⟨(C103_throws_iff env inp p hm l h0 hne).2.2 (key l hmask),
    (C103_throws_iff env inp' p hm l' h0' fun r hr => hne r ((h4 r).2 hr)).2.2 (key l' fun r hr a ha => ?_)⟩
  refine hmask r ((h4 r).2 hr) a ?_
  simpa only [RunStarts, hH] using ha

/-- C162: writing an entry again has no effect on whether the text is accepted and on what it matches. -/
def C162_claim : Prop :=
  ∀ (env : ParseEnv) (p : Parser) (inp inp' : Str), ListMode p → SameEntries p inp inp' → ∀ m : List Range, (Parser.parse env inp p).2 = .ok m →
    ∃ m', (Parser.parse env inp' p).2 = .ok m' ∧ ∀ a : Addr, addressMatchRanges m' a = addressMatchRanges m a

/-- C162: an IPv4 network with less than 96 bits is accepted once, and makes the merge throw when it is written twice. -/
theorem C162_claim_fails : ¬ C162_claim := by
  intro h
  have hs : SameEntries mergeParser "::ffff:10.0.0.0/90".toList "::ffff:10.0.0.0/90,::ffff:10.0.0.0/90".toList := by
    unfold SameEntries
    rw [show pieces mergeParser "::ffff:10.0.0.0/90".toList = ["::ffff:10.0.0.0/90".toList] by decide +kernel,
      show pieces mergeParser "::ffff:10.0.0.0/90,::ffff:10.0.0.0/90".toList = ["::ffff:10.0.0.0/90".toList, "::ffff:10.0.0.0/90".toList] by
        decide +kernel]
    intro e
    simp
  obtain ⟨m, h1, _⟩ := rangesFrom_elim (n := 0)
    (by decide +kernel : rangesFrom (Parser.parse sampleEnv "::ffff:10.0.0.0/90".toList mergeParser).2 = 1)
  obtain ⟨m', h2, _⟩ := h sampleEnv mergeParser _ _ mergeParser_reads.list hs m h1
  have h3 : (match (Parser.parse sampleEnv "::ffff:10.0.0.0/90,::ffff:10.0.0.0/90".toList mergeParser).2 with
    | .throw .outOfRange => true
    | _ => false) = true := by decide +kernel
  rw [h2] at h3
  cases h3

/-! ### Examples -/

theorem repeat_pieces : SameEntries mergeParser "10.0.0.1/24,10.0.1.2".toList "10.0.1.2,10.0.0.1/24,10.0.1.2".toList
    ∧ SameEntries accessParser "x,10.0.0.2".toList "x,10.0.0.2,x".toList := by
  unfold SameEntries
  rw [show pieces mergeParser "10.0.0.1/24,10.0.1.2".toList = ["10.0.0.1/24".toList, "10.0.1.2".toList] by decide +kernel,
    show pieces mergeParser "10.0.1.2,10.0.0.1/24,10.0.1.2".toList = ["10.0.1.2".toList, "10.0.0.1/24".toList, "10.0.1.2".toList] by decide +kernel,
    show pieces accessParser "x,10.0.0.2".toList = ["x".toList, "10.0.0.2".toList] by decide +kernel,
    show pieces accessParser "x,10.0.0.2,x".toList = ["x".toList, "10.0.0.2".toList, "x".toList] by decide +kernel]
  constructor
  · intro e
    simp only [List.mem_cons, List.not_mem_nil, or_false]
    constructor
    · rintro (h | h) <;> simp [h]
    · rintro (h | h | h) <;> simp [h]
  · intro e
    simp only [List.mem_cons, List.not_mem_nil, or_false]
    constructor
    · rintro (h | h) <;> simp [h]
    · rintro (h | h | h) <;> simp [h]

/-- C162_not_merged: an error which is reported twice. -/
example : ∃ m', (Parser.parse sampleEnv "x,10.0.0.2,x".toList accessParser).2 = .ok m'
    ∧ (Parser.parse sampleEnv "x,10.0.0.2,x".toList accessParser).1.getErrorCount = 2
    ∧ (Parser.parse sampleEnv "x,10.0.0.2".toList accessParser).1.getErrorCount = 1 := by
  obtain ⟨m, h1, _⟩ := rangesFrom_elim (n := 0) (by decide +kernel : rangesFrom (Parser.parse sampleEnv "x,10.0.0.2".toList accessParser).2 = 1)
  obtain ⟨_, _, m', g1, _⟩ := C162_not_merged sampleEnv accessParser _ _ accessParser_reads.list (by decide) repeat_pieces.2 m h1
  exact ⟨m', g1, by decide +kernel, by decide +kernel⟩

/-- C162_merged_partial: a network and an address which is written twice. -/
example : ∃ m m', (Parser.parse sampleEnv "10.0.0.1/24,10.0.1.2".toList mergeParser).2 = .ok m
    ∧ (Parser.parse sampleEnv "10.0.1.2,10.0.0.1/24,10.0.1.2".toList mergeParser).2 = .ok m' ∧ intervals m' = intervals m := by
  obtain ⟨l, h0, _, hf⟩ := rangesFrom_elim (n := 1)
    (by decide +kernel : rangesFrom (Parser.parse sampleEnv "10.0.0.1/24,10.0.1.2".toList (unsortedOf mergeParser)).2 = 2)
  obtain ⟨m, h1, _⟩ := rangesFrom_elim (n := 1) (by decide +kernel : rangesFrom (Parser.parse sampleEnv "10.0.0.1/24,10.0.1.2".toList mergeParser).2 = 2)
  obtain ⟨m', h2, _⟩ := rangesFrom_elim (n := 1)
    (by decide +kernel : rangesFrom (Parser.parse sampleEnv "10.0.1.2,10.0.0.1/24,10.0.1.2".toList mergeParser).2 = 2)
  exact ⟨m, m', h1, h2, (C162_merged_partial sampleEnv mergeParser _ _ mergeParser_reads.list (by decide) repeat_pieces.1 l h0 hf m m' h1 h2).1⟩

/-- C162_returns: the masks of these entries have 96 bits or more. -/
example : ∃ m', (Parser.parse sampleEnv "10.0.1.2,10.0.0.1/24,10.0.1.2".toList mergeParser).2 = .ok m' := by
  have h : (match (Parser.parse sampleEnv "10.0.0.1/24,10.0.1.2".toList (unsortedOf mergeParser)).2 with
    | .ok l => l.all fun r => decide (first r ≤ last r ∧ 96 ≤ r.lo.getMaskSize)
    | _ => false) = true := by decide +kernel
  split at h
  · rename_i l h0
    have hl : ∀ r ∈ l, first r ≤ last r ∧ 96 ≤ r.lo.getMaskSize := fun r hr => of_decide_eq_true (List.all_eq_true.1 h r hr)
    refine (C162_returns sampleEnv mergeParser _ _ mergeParser_reads.list (by decide) repeat_pieces.1 l h0 (fun r hr => (hl r hr).1) fun r hr a _ => ?_).2
    have := (hl r hr).2
    unfold leastBits
    split <;> omega
  · cases h

end Verif
