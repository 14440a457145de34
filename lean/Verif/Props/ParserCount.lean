import Verif.Lemmas.ParserCount
import Verif.Props.ParserSource

/-!
# Property C46: an entry is either read or reported, and the second part of property C45
-/

namespace Verif

open Spec

/-- The input is one entry: either lists are not allowed, or there is no separator (nor comment) in it. -/
def SingleEntry (p : Parser) (inp : Str) : Prop :=
  ¬ ListMode p ∨ (inp ≠ [] ∧ ∀ x ∈ inp, separates p x = false ∧ introduces p x = false)

/-- The number of errors reported by `parse()`. -/
def newErrors (env : ParseEnv) (inp : Str) (p : Parser) : Int :=
  (Parser.parse env inp p).1.getErrorCount - p.getErrorCount

/-- The answers of the name service are usable, or it is not asked. -/
def Answers (env : ParseEnv) (p : Parser) : Prop := p.config.flags .addressLookup = true → GoodAnswers env

/-! ### Lemmas -/

theorem length_stableSort {lt : Range → Range → Res Bool} {l l' : List Range} (h : Parser.stableSort lt l = .ok l') :
    l'.length = l.length := by
  have hi : ∀ (a : Range) (l : List Range), (Parser.orderedInsert lt a l).length = l.length + 1 := by
    intro a l
    induction l with
    | nil => rfl
    | cons b l ih =>
      rw [Parser.orderedInsert]
      split
      · rw [List.length_cons, ih, List.length_cons]
      · rfl
  rw [Parser.stableSort] at h
  split at h
  · cases h
    clear * - hi
    induction l with
    | nil => rfl
    | cons b l ih => rw [List.foldr_cons, hi, ih, List.length_cons]
  · cases h

theorem length_mergeLoop (cur : Range) (l l' : List Range) (h : Parser.mergeLoop cur l = .ok l') :
    1 ≤ l'.length ∧ l'.length ≤ l.length + 1 := by
  induction l generalizing cur l' with
  | nil => cases h; exact ⟨Nat.le_refl _, Nat.le_refl _⟩
  | cons next l ih =>
    rw [Parser.mergeLoop] at h
    cases hu : cur.unionIfPossible next with
    | throw e => rw [hu] at h; cases h
    | ub w => rw [hu] at h; cases h
    | ok u =>
      rw [hu] at h
      simp only [Res.bind_ok] at h
      split at h
      · have := ih u l' h
        rw [List.length_cons]
        omega
      · cases h2 : Parser.mergeLoop next l with
        | throw e => rw [h2] at h; cases h
        | ub w => rw [h2] at h; cases h
        | ok l2 =>
          rw [h2] at h
          cases h
          have := ih next l2 h2
          rw [List.length_cons, List.length_cons]
          omega

theorem length_sortResult {s : BitVec 64} {l l' : List Range} (h : Parser.sortResult s l = .ok l') :
    l'.length ≤ l.length ∧ (l ≠ [] → l' ≠ []) := by
  rw [sortResult_eq] at h
  have hl1 : ∀ l1, (if s &&& (SORT_FULL ||| SORT_MERGE) ≠ 0 then Parser.stableSort Range.lt l else .ok l) = .ok l1 →
      l1.length = l.length := by
    intro l1 h1
    split at h1
    · exact length_stableSort h1
    · cases h1; rfl
  generalize (if s &&& (SORT_FULL ||| SORT_MERGE) ≠ 0 then Parser.stableSort Range.lt l else .ok l) = x at h hl1
  cases x with
  | throw e => cases h
  | ub w => cases h
  | ok l1 =>
    have hl1 := hl1 l1 rfl
    simp only [Res.bind_ok] at h
    cases h2 : mergeStep s l1 with
    | throw e => rw [h2] at h; cases h
    | ub w => rw [h2] at h; cases h
    | ok l2 =>
      rw [h2] at h
      simp only [Res.bind_ok] at h
      have hl2 : l2.length ≤ l1.length ∧ (l1.length ≠ 0 → l2.length ≠ 0) := by
        rw [mergeStep] at h2
        split at h2
        · cases l1 with
          | nil => cases h2; exact ⟨Nat.le_refl _, fun h => h⟩
          | cons a l1 =>
            have := length_mergeLoop a l1 l2 h2
            rw [List.length_cons]
            omega
        · cases h2; exact ⟨Nat.le_refl _, fun h => h⟩
      have hl3 : l'.length = l2.length := by
        rw [familyStep] at h
        split at h
        · exact length_stableSort h
        · split at h
          · exact length_stableSort h
          · cases h; rfl
      refine ⟨by omega, fun hne h0 => ?_⟩
      have : l.length ≠ 0 := fun h => hne (List.eq_nil_of_length_eq_zero h)
      have : l'.length = 0 := by rw [h0]; rfl
      omega

/-- A cost of every entry is a cost of an input of one entry. -/
theorem parseUnsorted_one {env : ParseEnv} {c : Config} {Q : Nat → List Range → Prop}
    (hQ : ∀ e, Parser.Cost c (Parser.parseCidr env e []) Q) {inp : Str} {p : Parser} (hp : p.config = c) (h : SingleEntry p inp) :
    ∃ n : Nat, (Parser.parseUnsorted env inp p).1.errorCount = p.errorCount + n
      ∧ ∀ l, (Parser.parseUnsorted env inp p).2 = .ok l → Q n l := by
  by_cases hl : ListMode p
  · obtain ⟨h0, h1⟩ := h.resolve_left (not_not_intro hl)
    have hu : Parser.parseUnsorted env inp p = Parser.seqEntries env (Parser.entriesOf p.config inp.length inp) p := by
      rw [Parser.parseUnsorted, PM.config_bind, if_neg ((listMode_iff p).2 hl), Parser.parseList_eq]
      exact congrFun (PM.bind_pure _) p
    have he : Parser.entriesOf p.config inp.length inp = [inp] := by
      refine Parser.entriesOf_one p.config inp h0 (fun x hx => by rw [isSep_eq]; exact (h1 x hx).1) ?_
      rw [Parser.entryText]
      split
      · exact takeWhile_self fun x hx => by
          have := (h1 x hx).2
          rw [← isComment_eq, Parser.isComment] at this
          rw [this]; rfl
      · rfl
    rw [hu, he, Parser.seqEntries]
    have : (fun l => Parser.prepend l (Parser.seqEntries env [])) = fun l => (Pure.pure l : PM (List Range)) := by
      funext l q
      show Parser.prepend l (Pure.pure []) q = _
      rw [Parser.prepend, PM.pure_bind, List.append_nil]
    rw [this, PM.bind_pure]
    exact (hQ inp p hp).2
  · have hs : Parser.separators p.config = [] := Decidable.not_not.1 fun h => hl ((listMode_iff p).1 h)
    rw [Parser.parseUnsorted, PM.config_bind, if_pos hs, Parser.parseSingle, PM.config_bind]
    split
    · exact (Parser.cost_bind (R := fun n _ => n = 0) (Parser.cost_lift fun _ _ => rfl)
        (fun n e hn => by subst hn; exact Parser.cost_mono (hQ e) fun k l hk => by rw [Nat.zero_add]; exact hk) p hp).2
    · exact (hQ inp p hp).2

/-- From reading to parsing. -/
theorem parse_entry {env : ParseEnv} {inp : Str} {p : Parser} {Q : Nat → List Range → Prop}
    (h : ∃ n : Nat, (Parser.parseUnsorted env inp p).1.errorCount = p.errorCount + n
      ∧ ∀ l, (Parser.parseUnsorted env inp p).2 = .ok l → Q n l) {l : List Range} (hl : (Parser.parse env inp p).2 = .ok l) :
    ∃ (n : Nat) (l0 : List Range), newErrors env inp p = n ∧ Q n l0 ∧ Parser.sortResult p.config.sort l0 = .ok l := by
  obtain ⟨n, h1, h2⟩ := h
  unfold newErrors Parser.getErrorCount
  rw [parse_eq, PM.bind_def] at hl ⊢
  rcases hm : Parser.parseUnsorted env inp p with ⟨q, x⟩
  rw [hm] at h1 h2 hl
  cases x with
  | throw e => cases hl
  | ub w => cases hl
  | ok l0 =>
    refine ⟨n, l0, ?_, h2 l0 rfl, hl⟩
    dsimp only at h1 ⊢
    show q.errorCount - p.errorCount = n
    omega

/-! ### C46 -/

/-- An entry gives either addresses and no error, or errors and no address. -/
theorem C46_entry (env : ParseEnv) (inp : Str) (p : Parser) (l : List Range) (h1 : SingleEntry p inp) (henv : Answers env p)
    (hne : p.config.sort &&& SORT_NO_EMPTY = 0) (h : (Parser.parse env inp p).2 = .ok l) :
    (newErrors env inp p = 0 ∧ l ≠ []) ∨ (1 ≤ newErrors env inp p ∧ l = []) := by
  obtain ⟨n, l0, h2, h3, h4⟩ := parse_entry (parseUnsorted_one (fun e => Parser.cost_parseCidr henv e) rfl h1) h
  obtain ⟨h5, h6⟩ := length_sortResult h4
  rw [h2]
  rcases h3 with h3 | h3 | h3
  · left; rw [h3.1]; exact ⟨rfl, h6 h3.2.1⟩
  · right
    rw [h3.2.1] at h5
    exact ⟨by omega, List.eq_nil_of_length_eq_zero (Nat.le_zero.1 h5)⟩
  · exact absurd hne h3.2.2

/-- Without lookup an entry gives either one range or one error. -/
theorem C46_entry_one (env : ParseEnv) (inp : Str) (p : Parser) (l : List Range) (h1 : SingleEntry p inp)
    (hf : p.config.flags .addressLookup = false) (hne : p.config.sort &&& SORT_NO_EMPTY = 0)
    (h : (Parser.parse env inp p).2 = .ok l) :
    (newErrors env inp p = 0 ∧ ∃ r, l = [r]) ∨ (newErrors env inp p = 1 ∧ l = []) := by
  have henv : Parser.Trusted env p.config := fun h => by rw [hf] at h; cases h
  obtain ⟨n, l0, h2, h3, h4⟩ := parse_entry (parseUnsorted_one (fun e => Parser.cost_parseCidr henv e) rfl h1) h
  obtain ⟨h5, h6⟩ := length_sortResult h4
  rw [h2]
  rcases h3 with h3 | h3 | h3
  · left
    rw [h3.1]
    rw [h3.2.2 hf] at h5
    match l, h5, h6 h3.2.1 with
    | [], _, h => exact absurd rfl h
    | [r], _, _ => exact ⟨rfl, r, rfl⟩
    | _ :: _ :: _, h, _ => rw [List.length_cons, List.length_cons] at h; omega
  · right
    rw [h3.2.2 hf]
    rw [h3.2.1] at h5
    exact ⟨rfl, List.eq_nil_of_length_eq_zero (Nat.le_zero.1 h5)⟩
  · exact absurd hne h3.2.2

/-- When masks are allowed, an entry about which an error is reported gives no address, whatever the answers of the name
service. -/
theorem C46_mask_error (env : ParseEnv) (inp : Str) (p : Parser) (l : List Range) (h1 : SingleEntry p inp)
    (hm : p.config.flags .mask = true) (h : (Parser.parse env inp p).2 = .ok l) (herr : newErrors env inp p ≠ 0) : l = [] := by
  obtain ⟨n, l0, h2, h3, h4⟩ := parse_entry (parseUnsorted_one (fun e => Parser.cost_parseCidr_mask env hm e) rfl h1) h
  obtain ⟨h5, _⟩ := length_sortResult h4
  rw [h2] at herr
  rw [h3 (by omega)] at h5
  exact List.eq_nil_of_length_eq_zero (Nat.le_zero.1 h5)

/-- In a list each entry gives one range or one error. -/
theorem C46_counts (env : ParseEnv) (inp : Str) (p : Parser) (l : List Range) (hl : ListMode p) (hc : NoComments p)
    (hs : Unsorted p) (hf : p.config.flags .addressLookup = false) (hne : p.config.sort &&& SORT_NO_EMPTY = 0)
    (h : (Parser.parse env inp p).2 = .ok l) :
    l.length + newErrors env inp p = ((fields (separates p) inp).filter (· ≠ [])).length := by
  have hc' := (noComments_iff p).2 hc
  have hsep : Parser.isSep p.config = separates p := funext (isSep_eq p)
  have hm : (fields (separates p) inp).map (Parser.entryText p.config) = fields (separates p) inp := by
    rw [List.map_congr_left (g := id) fun e _ => by simp [Parser.entryText, hc'], List.map_id]
  unfold newErrors Parser.getErrorCount
  rw [parse_unsorted env inp p hl hs, Parser.entriesOf_eq _ (Or.inl hc') _ _ (Nat.le_refl _), hsep, hm] at h ⊢
  obtain ⟨_, n, h1, h2⟩ := Parser.cost_seqEntries (env := env) hf ((fields (separates p) inp).filter (· ≠ [])) p rfl
  have h3 := (h2 l h).2 hne
  rw [h1, ← h3, Int.natCast_add]
  omega

/-- When an error is reported about each entry of a list, the result is empty. -/
theorem C46_all_fail (env : ParseEnv) (inp : Str) (p : Parser) (hl : ListMode p) (hc : NoComments p) (hs : Unsorted p)
    (henv : p.config.flags .mask = true ∨ (Answers env p ∧ p.config.sort &&& SORT_NO_EMPTY = 0))
    (hfail : ∀ e ∈ (fields (separates p) inp).filter (· ≠ []),
      (∃ l, (Parser.parse env e (Parser.clearErrors p).1).2 = .ok l) ∧ newErrors env e (Parser.clearErrors p).1 ≠ 0) :
    (Parser.parse env inp (Parser.clearErrors p).1).2 = .ok [] := by
  have halone : ∀ e ∈ (fields (separates p) inp).filter (· ≠ []),
      (Parser.parse env e (Parser.clearErrors p).1).2 = .ok [] := by
    intro e he
    obtain ⟨⟨l, h1⟩, h2⟩ := hfail e he
    have hone : SingleEntry (Parser.clearErrors p).1 e := by
      obtain ⟨he1, he2⟩ := List.mem_filter.1 he
      refine .inr ⟨of_decide_eq_true he2, fun x hx => ⟨?_, ?_⟩⟩
      · exact fields_mem _ _ e he1 x hx
      · show introduces p x = false
        rw [introduces, hc.1, hc.2]; rfl
    have : l = [] := by
      rcases henv with hm | ⟨ha, hne⟩
      · exact C46_mask_error env e _ l hone hm h1 h2
      · rcases C46_entry env e _ l hone ha hne h1 with h | h
        · exact absurd h.1 h2
        · exact h.2
    rw [h1, this]
  have := (C41_concatenation env inp p hl hc hs (fun _ => [])
    (fun e => (Parser.parse env e (Parser.clearErrors p).1).1.errorMessages)
    (fun e => (Parser.parse env e (Parser.clearErrors p).1).1.getErrorCount) fun e he => ⟨halone e he, rfl, rfl⟩).1
  rw [this]
  simp

/-! ### C45: what is missing is reported -/

/-- With `ALLOW_REQUIRED_ADDRESS`, an entry which writes no address is refused. -/
theorem C45_missing_address_reported (env : ParseEnv) (inp : Str) (p : Parser) (l : List Range) (h1 : SingleEntry p inp)
    (hf : p.config.flags .addressLookup = false) (hne : p.config.sort &&& SORT_NO_EMPTY = 0)
    (hreq : p.config.flags .requiredAddress = true) (hno : ∀ t, t ≠ [] → t <:+: inp → ∀ b, ¬ Writes t b)
    (h : (Parser.parse env inp p).2 = .ok l) : l = [] ∧ newErrors env inp p = 1 := by
  rcases C46_entry_one env inp p l h1 hf hne h with ⟨_, r, hr⟩ | h2
  · exfalso
    have hmem : r ∈ l := hr ▸ List.mem_singleton_self r
    obtain ⟨hd, _, _⟩ := C45_sources env inp p l h r hmem
    have key : ∀ a, (r.hasFrom = true ∧ a = r.lo) ∨ (r.hasTo = true ∧ a = r.hi) → False := by
      intro a ha
      obtain ⟨t, q, h3, h4, h5⟩ := C45_required_address env inp p l hreq h r hmem a ha
      rw [Denotes, if_neg (by rw [hf]; decide)] at h5
      exact hno t h3 h4 _ h5.1
    rcases hd with hd | hd
    · exact key _ (.inl ⟨hd, rfl⟩)
    · exact key _ (.inr ⟨hd, rfl⟩)
  · exact ⟨h2.2, h2.1⟩

/-- With `ALLOW_REQUIRED_PORT`, an entry without a colon is refused, default port or not. -/
theorem C45_missing_port_reported (env : ParseEnv) (inp : Str) (p : Parser) (l : List Range) (h1 : SingleEntry p inp)
    (henv : Answers env p) (hne : p.config.sort &&& SORT_NO_EMPTY = 0) (hreq : p.config.flags .requiredPort = true)
    (hno : ':' ∉ inp) (h : (Parser.parse env inp p).2 = .ok l) : l = [] ∧ 1 ≤ newErrors env inp p := by
  rcases C46_entry env inp p l h1 henv hne h with ⟨_, hl⟩ | h2
  · exfalso
    cases hl' : l with
    | nil => exact hl hl'
    | cons r l' =>
      have hmem : r ∈ l := hl' ▸ List.mem_cons_self ..
      obtain ⟨hd, _, _⟩ := C45_sources env inp p l h r hmem
      have key : ∀ a, (r.hasFrom = true ∧ a = r.lo) ∨ (r.hasTo = true ∧ a = r.hi) → False := by
        intro a ha
        obtain ⟨_, t, q, _, h4, _⟩ := C45_required_port env inp p l hreq h r hmem a ha
        exact hno (h4.subset (List.mem_cons_self ..))
      rcases hd with hd | hd
      · exact key _ (.inl ⟨hd, rfl⟩)
      · exact key _ (.inr ⟨hd, rfl⟩)
  · exact ⟨h2.2, h2.1⟩

/-- A list parser with masks, which requires the address. -/
def countParser : Parser :=
  ParserOp.runAll [(sampleEnv, .setAllow 1 true), (sampleEnv, .setAllow 2 true), (sampleEnv, .setAllow 9 true)] sampleParser

/-- The same one which requires the port. -/
def portParser : Parser := ParserOp.runAll [(sampleEnv, .setAllow 8 true), (sampleEnv, .setDefaultPort 80)] sampleParser

example : ListMode countParser ∧ NoComments countParser ∧ Unsorted countParser
    ∧ countParser.config.flags .addressLookup = false ∧ countParser.config.sort &&& SORT_NO_EMPTY = 0
    ∧ fromTexts (Parser.parse sampleEnv "1.2.3.4/8,5.6.7.8/33,,/3,::1/64".toList countParser).2
      = some ["1.2.3.4".toList, "::1".toList]
    ∧ newErrors sampleEnv "1.2.3.4/8,5.6.7.8/33,,/3,::1/64".toList countParser = 2
    ∧ ((fields (separates countParser) "1.2.3.4/8,5.6.7.8/33,,/3,::1/64".toList).filter (· ≠ [])).length = 4 := by
  refine ⟨.inl (by decide), ⟨by decide, by decide⟩, by unfold Unsorted; decide, by decide, by decide, ?_, ?_, ?_⟩ <;> decide +kernel

example : SingleEntry countParser "5.6.7.8/33".toList ∧ countParser.config.flags .mask = true
    ∧ newErrors sampleEnv "5.6.7.8/33".toList countParser = 1
    ∧ fromTexts (Parser.parse sampleEnv "5.6.7.8/33".toList countParser).2 = some [] :=
  ⟨.inr ⟨by decide, by decide +kernel⟩, by decide, by decide +kernel, by decide +kernel⟩

example : countParser.config.flags .requiredAddress = true
    ∧ fromTexts (Parser.parse sampleEnv "1.2.3.4/8".toList countParser).2 = some ["1.2.3.4".toList] := by
  constructor <;> decide +kernel

example : SingleEntry portParser "1.2.3.4".toList ∧ Answers sampleEnv portParser ∧ portParser.config.flags .requiredPort = true
    ∧ ':' ∉ "1.2.3.4".toList ∧ fromTexts (Parser.parse sampleEnv "1.2.3.4".toList portParser).2 = some []
    ∧ fromTexts (Parser.parse sampleEnv "1.2.3.4:80".toList portParser).2 = some ["1.2.3.4".toList] :=
  ⟨.inl (by unfold ListMode; decide), fun h => absurd h (by decide), by decide, by decide, by decide +kernel, by decide +kernel⟩

/-- A socket address for the example below. -/
def oddIn : SockaddrIn := { family := AF_INET, port := 0, addr := #v[1, 2, 3, 4], zero := Vector.replicate 8 0 }

/-- A name service whose first answer has a wrong size. -/
def oddEnv : ParseEnv := { sampleEnv with getaddrinfo := fun _ _ _ _ => .list [.inet 5 6 oddIn, .inet 16 6 oddIn] }

/-- The condition on the answers is needed: here an error is reported, and yet there is a range. -/
example : SingleEntry Parser.create "a.b".toList ∧ ¬ Answers oddEnv Parser.create
    ∧ newErrors oddEnv "a.b".toList Parser.create = 1
    ∧ fromTexts (Parser.parse oddEnv "a.b".toList Parser.create).2 = some ["a.b".toList] := by
  refine ⟨.inl (by unfold ListMode; decide), fun h => ?_, by decide +kernel, by decide +kernel⟩
  have := (h (by decide) [] [] false 0 _ rfl).2 _ (List.mem_cons_self ..)
  exact absurd this (by show ¬ (5 = sizeofIn); decide)

end Verif
