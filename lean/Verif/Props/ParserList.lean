import Verif.Lemmas.ParserList
import Verif.Props.ParserState

/-!
# Properties C41 and C42: lists and comments
-/

namespace Verif

/-- The characters which separate two addresses. -/
def separates (p : Parser) (x : Char) : Bool :=
  (p.config.flags .multiAddressesCommas && x == ',') || (p.config.flags .multiAddressesSpaces && x == ' ')
    || (p.config.flags .multiAddressesNewlines && x == '\n')

/-- The characters which start a comment. -/
def introduces (p : Parser) (x : Char) : Bool :=
  (p.config.flags .commentHash && x == '#') || (p.config.flags .commentSemicolon && x == ';')

/-- Several addresses are allowed. -/
def ListMode (p : Parser) : Prop :=
  p.config.flags .multiAddressesCommas = true ∨ p.config.flags .multiAddressesSpaces = true
    ∨ p.config.flags .multiAddressesNewlines = true

/-- No comments are allowed. -/
def NoComments (p : Parser) : Prop := p.config.flags .commentHash = false ∧ p.config.flags .commentSemicolon = false

/-- None of the four sort bits is set (`SORT_NO_EMPTY` may be). -/
def Unsorted (p : Parser) : Prop := p.config.sort &&& 0x0F = 0

/-- The calls `parse(e)` one after the other on the same parser, the results put end to end. -/
def parseEach (env : ParseEnv) : List Str → Parser → Parser × Res (List Range)
  | [], p => (p, .ok [])
  | e :: es, p =>
    match Parser.parse env e p with
    | (q, .ok l) =>
      match parseEach env es q with
      | (q', .ok l') => (q', .ok (l ++ l'))
      | x => x
    | x => x

/-! ### The vocabulary above in terms of the model -/

theorem isSep_eq (p : Parser) (x : Char) : Parser.isSep p.config x = separates p x := by
  rw [Parser.isSep, Parser.separators, separates]
  cases p.config.flags .multiAddressesCommas <;> cases p.config.flags .multiAddressesSpaces <;>
    cases p.config.flags .multiAddressesNewlines <;> simp [Bool.or_assoc, Bool.beq_eq_decide_eq]

theorem isComment_eq (p : Parser) (x : Char) : Parser.isComment p.config x = introduces p x := by
  rw [Parser.isComment, Parser.commentChars, introduces]
  cases p.config.flags .commentHash <;> cases p.config.flags .commentSemicolon <;> simp [Bool.beq_eq_decide_eq]

theorem listMode_iff (p : Parser) : Parser.separators p.config ≠ [] ↔ ListMode p := by
  rw [Parser.separators, ListMode]
  cases p.config.flags .multiAddressesCommas <;> cases p.config.flags .multiAddressesSpaces <;>
    cases p.config.flags .multiAddressesNewlines <;> simp

theorem noComments_iff (p : Parser) : Parser.commentChars p.config = [] ↔ NoComments p := by
  rw [Parser.commentChars, NoComments]
  cases p.config.flags .commentHash <;> cases p.config.flags .commentSemicolon <;> simp

theorem sort_bits (s : BitVec 64) (h : s &&& 0x0F = 0) :
    s &&& (SORT_FULL ||| SORT_MERGE) = 0 ∧ s &&& SORT_MERGE = 0 ∧ s &&& SORT_IPV4_FIRST = 0 ∧ s &&& SORT_IPV6_FIRST = 0 := by
  have key : ∀ m : BitVec 64, 0x0F &&& m = m → s &&& m = 0 := by
    intro m hm
    rw [← hm, ← BitVec.and_assoc, h]
    exact BitVec.zero_and
  exact ⟨key _ (by decide), key _ (by decide), key _ (by decide), key _ (by decide)⟩

theorem sortResult_unsorted (s : BitVec 64) (h : s &&& 0x0F = 0) (l : List Range) : Parser.sortResult s l = .ok l := by
  obtain ⟨h1, h2, h3, h4⟩ := sort_bits s h
  simp [Parser.sortResult, h1, h2, h3, h4, Bind.bind, Res.bind]

/-- The parser after its entries, when nothing is sorted. -/
theorem parse_unsorted (env : ParseEnv) (inp : Str) (p : Parser) (hl : ListMode p) (hs : Unsorted p) :
    Parser.parse env inp p = Parser.seqEntries env (Parser.entriesOf p.config inp.length inp) p := by
  rw [Parser.parse_list env inp p ((listMode_iff p).2 hl)]
  have : (fun l => PM.lift (Parser.sortResult p.config.sort l)) = fun l => (Pure.pure l : PM (List Range)) := by
    funext l
    rw [sortResult_unsorted _ hs]
    rfl
  rw [this, PM.bind_pure]

theorem parseEach_eq (env : ParseEnv) (es : List Str) (p : Parser) (hl : ListMode p) (hs : Unsorted p)
    (he : ∀ e ∈ es, e ≠ [] ∧ (∀ x ∈ e, Parser.isSep p.config x = false) ∧ Parser.entryText p.config e = e) :
    parseEach env es p = Parser.seqEntries env es p := by
  induction es generalizing p with
  | nil => rfl
  | cons e es ih =>
    obtain ⟨h0, h1, h2⟩ := he e List.mem_cons_self
    have hpe : Parser.parse env e p = Parser.parseCidr env e [] p := by
      rw [parse_unsorted env e p hl hs, Parser.entriesOf_one p.config e h0 h1 h2, Parser.seqEntries]
      have : (fun l => Parser.prepend l (Parser.seqEntries env [])) = fun l => (Pure.pure l : PM (List Range)) := by
        funext l
        rw [Parser.seqEntries, Parser.prepend_pure, List.append_nil]
      rw [this, PM.bind_pure]
    rw [parseEach, Parser.seqEntries, hpe]
    obtain ⟨errs, r, hlog⟩ := Parser.logging_parseCidr env p.config e []
    have hlog := hlog p rfl
    cases r with
    | ok l =>
      rw [PM.bind_of_ok hlog, hlog]
      dsimp only
      rw [ih (Parser.emitAll errs p) hl hs fun x hx => he x (List.mem_cons_of_mem _ hx)]
      obtain ⟨errs', r', hlog'⟩ := Parser.logging_seqEntries env p.config es
      have hlog' := hlog' (Parser.emitAll errs p) rfl
      rw [Parser.prepend]
      cases r' with
      | ok l' => rw [PM.bind_of_ok hlog', hlog']; rfl
      | throw x => rw [PM.bind_of_throw hlog', hlog']
      | ub w => rw [PM.bind_of_ub hlog', hlog']
    | throw x => rw [PM.bind_of_throw hlog, hlog]
    | ub w => rw [PM.bind_of_ub hlog, hlog]

/-! ## C41 -/

/-- C41: parsing a list is parsing its non-empty entries one after the other. -/
theorem C41_entrywise (env : ParseEnv) (inp : Str) (p : Parser) (hl : ListMode p) (hc : NoComments p) (hs : Unsorted p) :
    Parser.parse env inp p = parseEach env ((fields (separates p) inp).filter (· ≠ [])) p := by
  have hc' := (noComments_iff p).2 hc
  have hsep : Parser.isSep p.config = separates p := funext (isSep_eq p)
  have ht : ∀ e, Parser.entryText p.config e = e := fun e => by simp [Parser.entryText, hc']
  rw [parse_unsorted env inp p hl hs, Parser.entriesOf_eq _ (Or.inl hc') _ _ (Nat.le_refl _), hsep]
  have hm : (fields (separates p) inp).map (Parser.entryText p.config) = fields (separates p) inp := by
    rw [List.map_congr_left (g := id) fun e _ => ht e, List.map_id]
  rw [hm, parseEach_eq env _ p hl hs]
  intro e he
  rw [List.mem_filter] at he
  exact ⟨by simpa using he.2, fun x hx => by rw [hsep]; exact fields_mem _ _ _ he.1 x hx, ht e⟩

/-- C41: when each entry alone, on a parser without errors, returns `out e` and reports the lines `err e` (`cnt e` of
them), the list returns these results and reports these lines, put end to end. -/
theorem C41_concatenation (env : ParseEnv) (inp : Str) (p : Parser) (hl : ListMode p) (hc : NoComments p)
    (hs : Unsorted p) (out : Str → List Range) (err : Str → Str) (cnt : Str → Int)
    (alone : ∀ e ∈ (fields (separates p) inp).filter (· ≠ []),
      (Parser.parse env e (Parser.clearErrors p).1).2 = .ok (out e)
        ∧ (Parser.parse env e (Parser.clearErrors p).1).1.errorMessages = err e
        ∧ (Parser.parse env e (Parser.clearErrors p).1).1.getErrorCount = cnt e) :
    let entries := (fields (separates p) inp).filter (· ≠ [])
    let r := Parser.parse env inp (Parser.clearErrors p).1
    r.2 = .ok (entries.flatMap out) ∧ r.1.errorMessages = entries.flatMap err
      ∧ r.1.getErrorCount = (entries.map cnt).sum := by
  have hcl : (Parser.clearErrors p).1.config = p.config := rfl
  have hsep : separates (Parser.clearErrors p).1 = separates p := rfl
  dsimp only
  rw [C41_entrywise env inp (Parser.clearErrors p).1 hl hc hs, hsep]
  generalize (fields (separates p) inp).filter (· ≠ []) = es at alone
  have key : ∀ q : Parser, q.config = p.config →
      (parseEach env es q).2 = .ok (es.flatMap out)
        ∧ (parseEach env es q).1.errorMessages = q.errorMessages ++ es.flatMap err
        ∧ (parseEach env es q).1.getErrorCount = q.getErrorCount + (es.map cnt).sum := by
    induction es with
    | nil => intro q _; simp [parseEach]
    | cons e es ih =>
      intro q hq
      obtain ⟨new, r, hd⟩ := C38_parse_deterministic env e p.config
      obtain ⟨a1, a2, a3, a4⟩ := hd (Parser.clearErrors p).1 rfl
      obtain ⟨b1, b2, b3, b4⟩ := hd q hq
      obtain ⟨c1, c2, c3⟩ := alone e List.mem_cons_self
      have hr : r = .ok (out e) := by rw [← a1, c1]
      have herr : errorLines new = err e := by rw [← c2, a3]; simp [Parser.clearErrors, Parser.errorMessages]
      have hcnt : (new.length : Int) = cnt e := by
        rw [← c3, a4]
        simp [Parser.clearErrors, Parser.getErrorCount]
      have hp : Parser.parse env e q = ((Parser.parse env e q).1, .ok (out e)) := by
        rw [← hr, ← b1]
      rw [parseEach, hp]
      dsimp only
      obtain ⟨d1, d2, d3⟩ := ih (fun x hx => alone x (List.mem_cons_of_mem _ hx)) (Parser.parse env e q).1 b2
      cases hpe : parseEach env es (Parser.parse env e q).1 with
      | mk q' r' =>
        rw [hpe] at d1 d2 d3
        dsimp only at d1 d2 d3
        rw [d1]
        dsimp only
        refine ⟨by simp, ?_, ?_⟩
        · rw [d2, b3, herr]
          simp
        · rw [d3, b4, hcnt]
          simp only [List.map_cons, List.sum_cons]
          omega
  obtain ⟨h1, h2, h3⟩ := key (Parser.clearErrors p).1 rfl
  refine ⟨h1, ?_, ?_⟩
  · rw [h2]
    simp [Parser.clearErrors, Parser.errorMessages]
  · rw [h3]
    simp [Parser.clearErrors, Parser.getErrorCount]

/-- A parser which allows lists separated by commas and new lines. -/
def listParser : Parser :=
  ParserOp.runAll [(sampleEnv, .setAllow 2 true), (sampleEnv, .setAllow 4 true)] sampleParser

/-- The addresses (as text) of the ranges returned. -/
def fromTexts (r : Res (List Range)) : Option (List Str) :=
  match r with
  | .ok l => some (l.map fun x => x.lo.hostname)
  | _ => none

example : ListMode listParser ∧ NoComments listParser ∧ Unsorted listParser
    ∧ (fields (separates listParser) "1.2.3.4,,9.9\n::1".toList).filter (· ≠ [])
        = ["1.2.3.4".toList, "9.9".toList, "::1".toList]
    ∧ fromTexts (Parser.parse sampleEnv "1.2.3.4,,9.9\n::1".toList listParser).2 = some ["1.2.3.4".toList, "::1".toList]
    ∧ (Parser.parse sampleEnv "1.2.3.4,,9.9\n::1".toList listParser).1.errorMessages
        = "Unknown address in \"9.9\" (no DNS lookup was allowed).\n".toList := by
  refine ⟨Or.inl (by decide), ⟨by decide, by decide⟩, by unfold Unsorted; decide, by decide +kernel, by decide +kernel,
    by decide +kernel⟩

/-! ## C42 -/

/-- The input without its comments: up to the end of the line where lines are allowed, to the next separator where only
other separators are, to the end of the input otherwise. -/
def withoutComments (p : Parser) (inp : Str) : Str :=
  stripComments (if p.config.flags .multiAddressesNewlines then (· == '\n') else separates p) (introduces p) false inp

/-- The same parser with comments forbidden. -/
def forbidComments (p : Parser) : Parser := (Parser.setAllow 12 false (Parser.setAllow 11 false p).1).1

/-- C42: comments can be removed beforehand without effect, an input which is one comment gives nothing and an input
without comment is read as by a parser which forbids them. This is false of the code. -/
def C42_claim : Prop :=
  ∀ (env : ParseEnv) (p : Parser) (inp : Str), inp.length < 2 ^ 64 →
    Parser.parse env inp p = Parser.parse env (withoutComments p inp) p
    ∧ (inp ≠ [] → withoutComments p inp = [] → Parser.parse env inp p = (p, .ok []))
    ∧ ((∀ x ∈ inp, introduces p x = false) →
        (Parser.parse env inp p).2 = (Parser.parse env inp (forbidComments p)).2)

/-- One address at a time, comments allowed. -/
def commentParser : Parser := ParserOp.runAll [(sampleEnv, .setAllow 11 true)] sampleParser

/-- Commas, new lines and comments. -/
def commentListParser : Parser := ParserOp.runAll [(sampleEnv, .setAllow 11 true)] listParser

/-- C42: an input which is only a comment returns the default address. -/
theorem C42_comment_is_default_fails :
    withoutComments commentParser "#abc".toList = []
      ∧ fromTexts (Parser.parse sampleEnv "#abc".toList commentParser).2 = some ["0.0.0.0".toList] := by
  constructor <;> decide +kernel

/-- C42: after spaces, the comment is read as an address. -/
theorem C42_comment_is_address_fails :
    withoutComments commentParser " #abc".toList = " ".toList
      ∧ (Parser.parse sampleEnv " #abc".toList commentParser).1.errorMessages
        = "Unknown address in \"#abc\" (no DNS lookup was allowed).\n".toList
      ∧ (Parser.parse sampleEnv " ".toList commentParser).1.errorMessages = [] := by
  refine ⟨?_, ?_, ?_⟩ <;> decide +kernel

/-- C42: with comments, commas and new lines only the first address of each line is read, though there is no comment. -/
theorem C42_swallows_fails :
    (∀ x ∈ "1.2.3.4,5.6.7.8\n9.9.9.9".toList, introduces commentListParser x = false)
      ∧ fromTexts (Parser.parse sampleEnv "1.2.3.4,5.6.7.8\n9.9.9.9".toList commentListParser).2
        = some ["1.2.3.4".toList, "9.9.9.9".toList]
      ∧ fromTexts (Parser.parse sampleEnv "1.2.3.4,5.6.7.8\n9.9.9.9".toList (forbidComments commentListParser)).2
        = some ["1.2.3.4".toList, "5.6.7.8".toList, "9.9.9.9".toList] := by
  refine ⟨?_, ?_, ?_⟩ <;> decide +kernel

theorem C42_claim_fails : ¬ C42_claim := by
  intro h
  have h1 := (h sampleEnv commentListParser "1.2.3.4,5.6.7.8\n9.9.9.9".toList (by decide)).2.2 C42_swallows_fails.1
  have h2 := C42_swallows_fails.2
  rw [h1] at h2
  rw [h2.2] at h2
  exact absurd h2.1 (by decide)

theorem forbid_config (p : Parser) :
    (forbidComments p).config.flags = (fun f => if f = .commentHash ∨ f = .commentSemicolon then false else p.config.flags f)
      ∧ (forbidComments p).config.sort = p.config.sort
      ∧ (forbidComments p).error = p.error ∧ (forbidComments p).errorCount = p.errorCount
      ∧ Parser.AgreeMask p.config (forbidComments p).config := by
  have hf : (forbidComments p).config.flags
      = (fun f => if f = .commentHash ∨ f = .commentSemicolon then false else p.config.flags f) := by
    funext f
    cases f <;> rfl
  refine ⟨hf, rfl, rfl, rfl, ?_⟩
  constructor
  case toAgree => exact ⟨by constructor <;> rfl, rfl⟩
  all_goals rfl

/-- C42, for lists: removing the comments beforehand changes nothing, an input made only of a comment gives nothing and an
input without comments is read as if they were forbidden, whatever the sort order. Excluded: new lines allowed together with
commas or spaces (see `C42_first_of_line_partial`). -/
theorem C42_list_partial (env : ParseEnv) (p : Parser) (inp : Str) (hl : ListMode p)
    (hs : p.config.flags .multiAddressesNewlines = true →
      p.config.flags .multiAddressesCommas = false ∧ p.config.flags .multiAddressesSpaces = false) :
    Parser.parse env inp p = Parser.parse env (withoutComments p inp) p
    ∧ (withoutComments p inp = [] → Parser.parse env inp p = (p, .ok []))
    ∧ ((∀ x ∈ inp, introduces p x = false) →
        (Parser.parse env inp p).2 = (Parser.parse env inp (forbidComments p)).2
        ∧ (Parser.parse env inp p).1.errorMessages = (Parser.parse env inp (forbidComments p)).1.errorMessages) := by
  have hl' := (listMode_iff p).2 hl
  have hskip : Parser.NoSkip p.config := by
    cases hn : p.config.flags .multiAddressesNewlines with
    | false => exact Or.inr (Or.inl hn)
    | true => exact Or.inr (Or.inr (hs hn))
  have hsep : Parser.isSep p.config = separates p := funext (isSep_eq p)
  have hcom : Parser.isComment p.config = introduces p := funext (isComment_eq p)
  have hw : withoutComments p inp = stripComments (separates p) (introduces p) false inp := by
    rw [withoutComments]
    split
    · rename_i hn
      congr 1
      funext x
      simp [separates, hn, hs hn]
    · rfl
  have h1 : Parser.parse env inp p = Parser.parse env (withoutComments p inp) p := by
    rw [Parser.parse_list env inp p hl', Parser.parse_list env _ p hl', Parser.entriesOf_strip _ hskip inp, hsep, hcom, hw]
  refine ⟨h1, ?_, ?_⟩
  · intro h
    rw [h1, h, Parser.parse_list env _ p hl']
    have : Parser.sortResult p.config.sort [] = .ok [] := by
      have hss : ∀ lt, Parser.stableSort lt [] = .ok [] := fun lt => by
        simp [Parser.stableSort, Parser.isStrictWeakOrder]
      rw [Parser.sortResult]
      repeat' split
      all_goals simp [Bind.bind, Res.bind, Parser.mergeAll, *]
    show (Parser.seqEntries env [] >>= _) p = _
    rw [Parser.seqEntries, PM.pure_bind, this]
    rfl
  · intro hx
    obtain ⟨f1, f2, f3, f4, f5⟩ := forbid_config p
    have hl2 : Parser.separators (forbidComments p).config ≠ [] := by
      rw [listMode_iff]
      simpa [ListMode, f1] using hl
    have hnc : Parser.commentChars (forbidComments p).config = [] := by
      rw [noComments_iff]
      simp [NoComments, f1]
    rw [Parser.parse_list env inp p hl', Parser.parse_list env inp _ hl2]
    have he : Parser.entriesOf p.config inp.length inp = Parser.entriesOf (forbidComments p).config inp.length inp := by
      rw [Parser.entriesOf_eq _ hskip _ _ (Nat.le_refl _), Parser.entriesOf_eq _ (Or.inl hnc) _ _ (Nat.le_refl _)]
      have hsep2 : Parser.isSep (forbidComments p).config = Parser.isSep p.config := by
        funext x
        rw [isSep_eq, isSep_eq]
        simp [separates, f1]
      rw [hsep2]
      congr 1
      apply List.map_congr_left
      intro e hm
      have h2 : Parser.entryText (forbidComments p).config e = e := by simp [Parser.entryText, hnc]
      rw [h2, Parser.entryText]
      split
      · apply takeWhile_self
        intro x hxe
        have := hx x ((fields_infix _ _ _ hm).subset hxe)
        rw [← isComment_eq, Parser.isComment] at this
        simp only [this, Bool.not_false]
      · rfl
    rw [he, f2]
    have := Parser.rel_bind (Parser.rel_seqEntries f5 env (Parser.entriesOf (forbidComments p).config inp.length inp))
      (fun l => Parser.rel_lift _ _ (Parser.sortResult p.config.sort l)) p (forbidComments p) rfl rfl f3.symm f4.symm
    exact ⟨this.1, this.2.1⟩

/-- C42, for lists with new lines together with other separators and comments: what is read is, for each line, the first
non-empty piece, up to its comment. -/
theorem C42_first_of_line_partial (env : ParseEnv) (p : Parser) (inp : Str)
    (hn : p.config.flags .multiAddressesNewlines = true) (hc : ¬ NoComments p) (hs : Unsorted p) :
    Parser.parse env inp p =
      parseEach env (((fields (· == '\n') inp).map fun line =>
        (((fields (separates p) line).find? (· ≠ [])).getD []).takeWhile fun x => !introduces p x).filter (· ≠ [])) p := by
  have hl : ListMode p := Or.inr (Or.inr hn)
  have hc' : Parser.commentChars p.config ≠ [] := fun h => hc ((noComments_iff p).1 h)
  have hsep : Parser.isSep p.config = separates p := funext (isSep_eq p)
  have hcom : Parser.isComment p.config = introduces p := funext (isComment_eq p)
  have hlines := Parser.entriesOf_lines p.config hc' hn inp.length inp (Nat.le_refl _)
  have he : ∀ e, Parser.entryText p.config e = e.takeWhile fun x => !introduces p x := by
    intro e
    rw [Parser.entryText, if_pos hc', ← hcom]
    rfl
  simp only [he, Parser.firstPiece, hsep] at hlines
  rw [parse_unsorted env inp p hl hs, ← hlines, parseEach_eq env _ p hl hs]
  intro e hm
  obtain ⟨m1, m2, m3, _⟩ := Parser.entriesOf_mem _ _ _ _ hm
  exact ⟨m1, m2, m3⟩

/-- C42, for one address: removing the comment beforehand changes nothing unless there are only spaces, and at least one,
before it. -/
theorem C42_single_partial (env : ParseEnv) (p : Parser) (inp : Str) (hl : ¬ ListMode p) (hlen : inp.length < 2 ^ 64)
    (hb : inp.head?.any Parser.isSpace = false ∨ ∃ x ∈ withoutComments p inp, Parser.isSpace x = false) :
    Parser.parse env inp p = Parser.parse env (withoutComments p inp) p := by
  have hl' : Parser.separators p.config = [] := by
    refine Decidable.byContradiction fun h => hl ((listMode_iff p).1 h)
  have hcom : Parser.isComment p.config = introduces p := funext (isComment_eq p)
  have hn : p.config.flags .multiAddressesNewlines = false := by
    cases h : p.config.flags .multiAddressesNewlines with
    | false => rfl
    | true => exact absurd (Or.inr (Or.inr h)) hl
  have hsf : separates p = fun _ => false := by
    funext x
    rw [← isSep_eq, Parser.isSep, hl']
    rfl
  have hw : withoutComments p inp = inp.takeWhile fun x => !introduces p x := by
    rw [withoutComments, if_neg (by simp [hn]), hsf, strip_none]
  have hsp : ∀ x, introduces p x = true → Parser.isSpace x = false := by
    intro x hx
    simp only [introduces, Bool.or_eq_true, Bool.and_eq_true, beq_iff_eq] at hx
    rcases hx with ⟨_, rfl⟩ | ⟨_, rfl⟩ <;> decide
  have hwl : (withoutComments p inp).length < 2 ^ 64 := by
    have : (withoutComments p inp).length ≤ inp.length := by
      rw [hw]
      exact (List.takeWhile_prefix _).length_le
    omega
  have hbody : ∀ s, Parser.singleBody p.config s = (s.dropWhile Parser.isSpace).takeWhile fun x => !introduces p x := by
    intro s
    rw [Parser.singleBody, ← hcom]
    split
    · rfl
    · rename_i h
      exact (takeWhile_self fun x _ => by simp [Parser.isComment, by simpa using h]).symm
  have hswap : ∀ s : Str, (s.takeWhile fun x => !introduces p x).dropWhile Parser.isSpace
      = (s.dropWhile Parser.isSpace).takeWhile fun x => !introduces p x := by
    intro s
    induction s with
    | nil => rfl
    | cons x s ih =>
      by_cases hx : Parser.isSpace x = true
      · have hi : introduces p x = false := by
          cases h : introduces p x with
          | false => rfl
          | true => rw [hsp x h] at hx; cases hx
        rw [List.takeWhile_cons, if_pos (by simp [hi]), List.dropWhile_cons, if_pos hx, ih, List.dropWhile_cons, if_pos hx]
      · by_cases hi : introduces p x = true
        · simp [hi, hx]
        · simp [hi, hx]
  rw [Parser.parse_single env inp p hl', Parser.parse_single env _ p hl']
  have hps : Parser.parseSingle env inp [] p = Parser.parseSingle env (withoutComments p inp) [] p := by
    rw [Parser.parseSingle_eq env inp [] p (Or.inl hlen), Parser.parseSingle_eq env _ [] p (Or.inl hwl)]
    have hb1 : Parser.singleBody p.config (withoutComments p inp) = Parser.singleBody p.config inp := by
      rw [hbody, hbody, hw, hswap, takeWhile_idem]
    have hc1 : Parser.singleBody p.config inp ≠ [] ∨ Parser.singleStart inp = 0 := by
      rcases hb with hb | ⟨x, hx, hxs⟩
      · right
        rw [Parser.singleStart]
        cases inp with
        | nil => rfl
        | cons y t =>
          simp at hb
          simp [hb]
      · left
        rw [hbody, ← hswap, ← hw]
        intro h
        rw [Parser.dropWhile_eq_nil] at h
        rw [h x hx] at hxs
        cases hxs
    have hc2 : Parser.singleBody p.config (withoutComments p inp) ≠ [] ∨ Parser.singleStart (withoutComments p inp) = 0 := by
      rcases hc1 with h | h
      · exact Or.inl (by rw [hb1]; exact h)
      · right
        rw [Parser.singleStart, hw] at *
        cases inp with
        | nil => rfl
        | cons y t =>
          have : Parser.isSpace y = false := by
            cases hy : Parser.isSpace y with
            | false => rfl
            | true => simp [hy] at h
          rw [List.takeWhile_cons]
          split <;> simp [this]
    rw [if_pos hc1, if_pos hc2, hb1]
  simp only [PM.bind_def, hps]

/-- C42, for one address, in the other case (there are only spaces, and at least one, before the comment): the input is read as if
comments were forbidden, so the comment is taken for an address. -/
theorem C42_single_blank_partial (env : ParseEnv) (p : Parser) (inp : Str) (hl : ¬ ListMode p) (hlen : inp.length < 2 ^ 64)
    (hb : ¬ (inp.head?.any Parser.isSpace = false ∨ ∃ x ∈ withoutComments p inp, Parser.isSpace x = false)) :
    (Parser.parse env inp p).2 = (Parser.parse env inp (forbidComments p)).2
      ∧ (Parser.parse env inp p).1.errorMessages = (Parser.parse env inp (forbidComments p)).1.errorMessages
      ∧ (Parser.parse env inp p).1.getErrorCount = (Parser.parse env inp (forbidComments p)).1.getErrorCount := by
  obtain ⟨f1, f2, f3, f4, f5⟩ := forbid_config p
  obtain ⟨hb1, hb2⟩ := not_or.1 hb
  have hl' : Parser.separators p.config = [] := by
    refine Decidable.byContradiction fun h => hl ((listMode_iff p).1 h)
  have hl2 : Parser.separators (forbidComments p).config = [] := by
    refine Decidable.byContradiction fun h => hl ?_
    have := (listMode_iff _).1 h
    simpa [ListMode, f1] using this
  have hn : p.config.flags .multiAddressesNewlines = false := by
    cases h : p.config.flags .multiAddressesNewlines with
    | false => rfl
    | true => exact absurd (Or.inr (Or.inr h)) hl
  have hsf : separates p = fun _ => false := by
    funext x
    rw [← isSep_eq, Parser.isSep, hl']
    rfl
  have hw : withoutComments p inp = inp.takeWhile fun x => !introduces p x := by
    rw [withoutComments, if_neg (by simp [hn]), hsf, strip_none]
  have hnc : Parser.commentChars (forbidComments p).config = [] := by
    rw [noComments_iff]
    simp [NoComments, f1]
  have hstart : Parser.singleStart inp ≠ 0 := by
    rw [Parser.singleStart]
    cases inp with
    | nil => exact absurd rfl hb1
    | cons y t =>
      have : Parser.isSpace y = true := by simpa using hb1
      simp [this]
  have hbody : Parser.singleBody p.config inp = [] ∨ Parser.singleBody p.config inp = inp.dropWhile Parser.isSpace := by
    rw [Parser.singleBody]
    split
    · rename_i hc
      left
      rw [hw] at hb2
      cases hd : inp.dropWhile Parser.isSpace with
      | nil => rfl
      | cons y t =>
        have hy : Parser.isSpace y = false := by
          have := List.head?_dropWhile_not Parser.isSpace inp
          rw [hd] at this
          simpa using this
        have hsplit := List.takeWhile_append_dropWhile (p := Parser.isSpace) (l := inp)
        rw [hd] at hsplit
        cases hi : introduces p y with
        | true =>
          rw [← isComment_eq, Parser.isComment] at hi
          rw [List.takeWhile_cons, if_neg (by rw [hi]; decide)]
        | false =>
          exfalso
          refine hb2 ⟨y, ?_, hy⟩
          rw [← hsplit, List.takeWhile_append_of_pos]
          · refine List.mem_append_right _ ?_
            rw [List.takeWhile_cons, if_pos (by rw [hi]; rfl)]
            exact List.mem_cons_self
          · intro x hx
            have hsx := List.all_eq_true.1 (List.all_takeWhile (p := Parser.isSpace) (l := inp)) x hx
            cases h : introduces p x with
            | false => rfl
            | true =>
              simp only [introduces, Bool.or_eq_true, Bool.and_eq_true, beq_iff_eq] at h
              rcases h with ⟨_, rfl⟩ | ⟨_, rfl⟩ <;> exact absurd hsx (by decide)
    · exact Or.inr rfl
  have e1 : Parser.parseSingle env inp [] p = Parser.parseCidr env (inp.dropWhile Parser.isSpace) [] p := by
    rw [Parser.parseSingle_eq env inp [] p (Or.inl hlen)]
    rcases hbody with h | h
    · rw [if_neg (by rw [h]; exact fun h1 => h1.elim (fun h2 => h2 rfl) hstart)]
    · rw [h, ite_self]
  have e2 : Parser.parseSingle env inp [] (forbidComments p) = Parser.parseCidr env (inp.dropWhile Parser.isSpace) [] (forbidComments p) := by
    rw [Parser.parseSingle_eq env inp [] _ (Or.inr hnc)]
    have : Parser.singleBody (forbidComments p).config inp = inp.dropWhile Parser.isSpace := by
      rw [Parser.singleBody, if_neg (by rw [hnc]; exact fun h => h rfl)]
    rw [this, ite_self]
  rw [Parser.parse_single env inp p hl', Parser.parse_single env inp _ hl2]
  simp only [PM.bind_def, e1, e2, f2]
  have := Parser.rel_bind (Parser.rel_parseCidr f5 env (inp.dropWhile Parser.isSpace) [])
    (fun l => Parser.rel_lift _ _ (Parser.sortResult p.config.sort l)) p (forbidComments p) rfl rfl f3.symm f4.symm
  simp only [PM.bind_def] at this
  exact ⟨this.1, this.2.1, this.2.2.1⟩

example : ¬ (" #abc".toList.head?.any Parser.isSpace = false ∨ ∃ x ∈ withoutComments commentParser " #abc".toList, Parser.isSpace x = false) := by
  decide +kernel

/-- A list separated by commas, with comments. -/
def commaCommentParser : Parser := ParserOp.runAll [(sampleEnv, .setAllow 2 true), (sampleEnv, .setAllow 12 true)] sampleParser

example :
    withoutComments commaCommentParser "1.2.3.4;one,;none,::1".toList = "1.2.3.4,,::1".toList
      ∧ fromTexts (Parser.parse sampleEnv "1.2.3.4;one,;none,::1".toList commaCommentParser).2
        = some ["1.2.3.4".toList, "::1".toList]
      ∧ withoutComments commentParser " 1.2.3.4 # one".toList = " 1.2.3.4 ".toList
      ∧ fromTexts (Parser.parse sampleEnv " 1.2.3.4 # one".toList commentParser).2 = some ["1.2.3.4".toList]
      ∧ fromTexts (Parser.parse sampleEnv "#x\n,1.2.3.4#y\n9.9.9.9,#z".toList commentListParser).2
        = some ["1.2.3.4".toList, "9.9.9.9".toList] := by
  refine ⟨?_, ?_, ?_, ?_, ?_⟩ <;> decide +kernel

end Verif
