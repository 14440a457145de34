import Verif.Props.ListLanguage

/-!
# Property C95: the language of lists with comments
-/

namespace Verif

open Spec

/-- The text before the comment. -/
def beforeComment (p : Parser) (e : Str) : Str := e.takeWhile fun x => !introduces p x

/-- The pieces of a list which are read: with comments and new lines, what the line has before its first separator (empty
pieces at its start aside); otherwise everything between two separators. Always without the comment, and without what is
empty. -/
def pieces (p : Parser) (inp : Str) : List Str :=
  ((if p.config.flags .multiAddressesNewlines = true ∧ ¬ (p.config.flags .commentHash = false ∧ p.config.flags .commentSemicolon = false) then
      (fields (· == '\n') inp).map fun line => ((fields (separates p) line).find? (· ≠ [])).getD []
    else fields (separates p) inp).map (beforeComment p)).filter (· ≠ [])

/-! ### The vocabulary above in terms of the model -/

theorem pieces_eq (p : Parser) (inp : Str) : Parser.entriesOf p.config inp.length inp = pieces p inp := by
  have hsep : Parser.isSep p.config = separates p := funext (isSep_eq p)
  have hcom : Parser.isComment p.config = introduces p := funext (isComment_eq p)
  have ht (e : Str) : Parser.entryText p.config e = beforeComment p e := by
    rw [Parser.entryText, beforeComment, ← hcom]
    split
    · rfl
    · rename_i h
      exact (takeWhile_self fun x _ => by simp [Parser.isComment, by simpa using h]).symm
  have htf : Parser.entryText p.config = beforeComment p := funext ht
  rw [pieces]
  by_cases h : p.config.flags .multiAddressesNewlines = true ∧ ¬ (p.config.flags .commentHash = false ∧ p.config.flags .commentSemicolon = false)
  · rw [if_pos h]
    have hc : Parser.commentChars p.config ≠ [] := fun h1 => h.2 ((noComments_iff p).1 h1)
    have := Parser.entriesOf_lines p.config hc h.1 inp.length inp (Nat.le_refl _)
    rw [this, List.map_map]
    simp only [Parser.firstPiece, hsep, htf]
    rfl
  · rw [if_neg h, Parser.entriesOf_eq _ ?_ _ _ (Nat.le_refl _), hsep, htf]
    rcases Classical.not_and_iff_not_or_not.1 h with h | h
    · exact .inr (.inl (by simpa using h))
    · exact .inl ((noComments_iff p).2 (Classical.not_not.1 h))

theorem forbid_separates (p : Parser) (x : Char) : separates (forbidComments p) x = separates p x := by
  simp [separates, (forbid_config p).1]

theorem forbid_none (p : Parser) : NoComments (forbidComments p) := by
  simp [NoComments, (forbid_config p).1]

theorem pieces_mem {p : Parser} {inp e : Str} (he : e ∈ pieces p inp) : OneEntry (forbidComments p) e ∧ ∀ x ∈ e, x ∈ inp := by
  rw [← pieces_eq] at he
  obtain ⟨h1, h2, _, h3⟩ := Parser.entriesOf_mem _ _ _ _ he
  exact ⟨⟨h1, fun x hx => by rw [forbid_separates, ← isSep_eq]; exact h2 x hx, forbid_none p⟩, fun x hx => h3.subset hx⟩

/-- A list is read as its pieces by the parser without comments. -/
theorem parse_pieces (env : ParseEnv) (p : Parser) (inp : Str) (h : ReadsList (forbidComments p)) :
    (Parser.parse env inp p).2 = (parseEach env (pieces p inp) (forbidComments p)).2
      ∧ (Parser.parse env inp p).1.error = (parseEach env (pieces p inp) (forbidComments p)).1.error
      ∧ (Parser.parse env inp p).1.errorCount = (parseEach env (pieces p inp) (forbidComments p)).1.errorCount
      ∧ (Parser.parse env inp p).1.config = p.config := by
  obtain ⟨f1, f2, f3, f4, f5⟩ := forbid_config p
  have hl : ListMode p := by simpa [ListMode, f1] using h.list
  have hs : Unsorted p := by
    have := h.sort
    rwa [Unsorted, f2] at this
  rw [parse_unsorted env inp p hl hs, pieces_eq, parseEach_eq env _ _ h.list h.sort]
  · have := Parser.rel_seqEntries f5 env (pieces p inp) p (forbidComments p) rfl rfl f3.symm f4.symm
    exact ⟨this.1, this.2.1, this.2.2.1, this.2.2.2.1⟩
  · intro e he
    obtain ⟨⟨h1, h2, _⟩, _⟩ := pieces_mem he
    exact ⟨h1, fun x hx => by rw [isSep_eq]; exact h2 x hx, by simp [Parser.entryText, (noComments_iff _).2 (forbid_none p)]⟩

/-! ### C95 -/

/-- C95: the list is read as what its pieces write, in their order; there is one error for each of the others. -/
theorem C95_list (env : ParseEnv) (p : Parser) (inp : Str) (l : List (Nat × Nat × Nat)) (c : Nat) (h : ReadsList (forbidComments p))
    (hnul : '\x00' ∉ inp) (hw : Written env (forbidComments p) (pieces p inp) l c) :
    ∃ p' rs, Parser.parse env inp p = (p', .ok rs) ∧ p'.config = p.config ∧ p'.getErrorCount = p.getErrorCount + c
      ∧ (c = 0 → p' = p) ∧ (∀ r ∈ rs, r.hasFrom = true ∧ r.hasTo = false)
      ∧ rs.map resultOf = l.map fun x => (x.1, x.2.1, prefixMask x.2.2) := by
  obtain ⟨errs, rs, h1, h2, h3, h4⟩ := written_each h
    (fun e he => ⟨(pieces_mem he).1, fun hx => hnul ((pieces_mem he).2 _ hx)⟩) hw (forbidComments p) rfl
  obtain ⟨e1, e2, e3, e4⟩ := parse_pieces env p inp h
  rw [h1] at e1 e2 e3
  obtain ⟨f1, f2, f3, f4, f5⟩ := forbid_config p
  refine ⟨(Parser.parse env inp p).1, rs, Prod.ext rfl e1, e4, ?_, ?_, h3, h4⟩
  · rw [Parser.getErrorCount, e3]
    simp only [Parser.emitAll, Parser.getErrorCount, h2, f4]
  · intro h0
    rw [h0] at h2
    rw [List.eq_nil_of_length_eq_zero h2, Parser.emitAll_nil] at e2 e3
    rw [f3] at e2
    rw [f4] at e3
    revert e2 e3 e4
    generalize (Parser.parse env inp p).1 = q
    rcases q with ⟨a, b, d⟩
    rcases p with ⟨a', b', d'⟩
    rintro rfl rfl rfl
    rfl

/-- C95: there is no error exactly when every piece writes an address. -/
theorem C95_no_error_iff (env : ParseEnv) (p : Parser) (inp : Str) (h : ReadsList (forbidComments p)) (hnul : '\x00' ∉ inp) :
    (Parser.parse env inp p).1.getErrorCount = p.getErrorCount
      ↔ ∀ e ∈ pieces p inp, ∃ n port k, Item env (forbidComments p) e n port k := by
  obtain ⟨l, c, hw⟩ := C91_total env (forbidComments p) (pieces p inp)
  obtain ⟨p', rs, h1, _, h2, _⟩ := C95_list env p inp l c h hnul hw
  rw [h1, ← written_none hw]
  dsimp only
  omega

/-- C95: the result is matched by the addresses of the networks written. -/
theorem C95_matches (env : ParseEnv) (p : Parser) (inp : Str) (h : ReadsList (forbidComments p)) (hnul : '\x00' ∉ inp) :
    ∃ p' rs, Parser.parse env inp p = (p', .ok rs) ∧ ∀ a : Addr, ∃ b, addressMatchRanges rs a = .ok b
      ∧ (b = true ↔ ∃ e ∈ pieces p inp, ∃ n port k, Item env (forbidComments p) e n port k ∧ InNetwork (ip a.getIpv6.addr) n k) := by
  obtain ⟨l, c, hw⟩ := C91_total env (forbidComments p) (pieces p inp)
  obtain ⟨p', rs, h1, _, _, _, h2, h3⟩ := C95_list env p inp l c h hnul hw
  refine ⟨p', rs, h1, fun a => ?_⟩
  obtain ⟨b, h6, h7⟩ := written_match h (fun e he => (pieces_mem he).1) hw h2 h3 a
  exact ⟨b, h6, h7⟩

/-- C95: in a file with one address per line the pieces are the lines up to their comments, without those which are empty. -/
theorem C95_lines (p : Parser) (inp : Str) (hn : p.config.flags .multiAddressesNewlines = true)
    (hc : p.config.flags .multiAddressesCommas = false) (hs : p.config.flags .multiAddressesSpaces = false) :
    pieces p inp = ((fields (· == '\n') inp).map (beforeComment p)).filter (· ≠ []) := by
  have hsep : separates p = (· == '\n') := by
    funext x
    simp [separates, hn, hc, hs, Bool.beq_eq_decide_eq]
  rw [pieces, hsep]
  split
  · congr 2
    rw [List.map_congr_left (g := id), List.map_id]
    intro line hl
    have : fields (· == '\n') line = [line] := fields_self _ _ (fields_mem _ _ _ hl)
    rw [this]
    by_cases h0 : line = []
    · subst h0
      rfl
    · simp [h0]
  · rfl

/-! ### Examples and the claim -/

/-- A parser of files: one address per line, with ports, masks and comments. -/
def fileParser : Parser := ParserOp.runAll [(sampleEnv, .setAllow 4 true), (sampleEnv, .setAllow 11 true)] maskParser

theorem fileParser_reads : ReadsList (forbidComments fileParser) where
  lookup := by decide
  range := by decide
  protocol := by decide
  list := .inr (.inr (by decide))
  comments := ⟨by decide, by decide⟩
  sort := by unfold Unsorted; decide
  addressMask := by decide
  default4 := by decide
  default6 := by decide
  nul4 := by decide
  nul6 := by decide

theorem file_introduces (x : Char) : introduces fileParser x = (x == '#') := by
  rw [introduces, show fileParser.config.flags .commentHash = true by decide, show fileParser.config.flags .commentSemicolon = false by decide]
  simp [Bool.beq_eq_decide_eq]

theorem file_separates (x : Char) : separates (forbidComments fileParser) x = (x == '\n') := by
  rw [separates, show (forbidComments fileParser).config.flags .multiAddressesCommas = false by decide,
    show (forbidComments fileParser).config.flags .multiAddressesSpaces = false by decide,
    show (forbidComments fileParser).config.flags .multiAddressesNewlines = true by decide]
  simp [Bool.beq_eq_decide_eq]

/-- A small file. -/
def sampleFile : Str := "# list\n10.1.2.3/8 # ten\n\nx#y\n:80# any".toList

theorem file_pieces : pieces fileParser sampleFile = ["10.1.2.3/8 ".toList, "x".toList, ":80".toList] := by
  rw [C95_lines fileParser _ (by decide) (by decide) (by decide),
    show beforeComment fileParser = fun e => e.takeWhile fun x => !(x == '#') from funext fun e => by
      rw [beforeComment]
      simp only [file_introduces]]
  decide

/-- The file holds a network, an error, and a port of the default address. -/
theorem file_written : Written sampleEnv (forbidComments fileParser) (pieces fileParser sampleFile)
    [(0xFFFF0A010203, 0, 104), (0xFFFF00000000, 80, 128)] 1 := by
  rw [file_pieces]
  refine .item (.network (t := "10.1.2.3/8".toList) (a := "10.1.2.3".toList) (m := "8".toList) (u := "10.1.2.3".toList) (q := []) (by decide)
    ⟨[], " ".toList, rfl, by decide, by decide, by decide, by decide⟩ ⟨by decide, .inr rfl⟩ (Entry.bare4 (by decide))
    (.inl ⟨0x0A010203, by decide, by decide, rfl⟩)
    ⟨by decide, by rw [if_neg (by decide), if_pos (by decide)]; exact ⟨by decide, rfl⟩⟩ (.inr ⟨by decide, by decide, by decide, by decide⟩))
    (.error ?_ (.item (.maskOnly (t := ":80".toList) (a := ":80".toList) (m := []) (u := "0.0.0.0".toList) (q := "80".toList) (by decide)
      (trims_self (by decide) (by decide)) ⟨by decide, .inl ⟨rfl, rfl⟩⟩ (by decide)
      (.inl (.port4 (u := []) (by decide) (by decide) (.inl (by decide)))) (.inr ⟨?_, by decide⟩) address_any4
      ⟨by decide, by rw [if_pos (by decide)]; exact ⟨.inl (by decide), by decide⟩⟩ (.inl ⟨rfl, rfl⟩)) .nil))
  · rintro ⟨n, port, k, hi⟩
    obtain ⟨r, h1, _⟩ := item_accepted fileParser_reads (e := "x".toList) ⟨by decide, fun x hx => by rw [file_separates]; revert x; decide,
      ⟨by decide, by decide⟩⟩ hi
    have h2 : (Parser.parse sampleEnv "x".toList (forbidComments fileParser)).1.getErrorCount = 1 := by decide +kernel
    rw [h1] at h2
    exact absurd (show (forbidComments fileParser).getErrorCount = 1 from h2) (by decide)
  · unfold DefaultSix
    decide

example : ∃ p' rs, Parser.parse sampleEnv sampleFile fileParser = (p', .ok rs) ∧ p'.getErrorCount = 1
    ∧ rs.map resultOf = [(0xFFFF0A010203, 0, prefixMask 104), (0xFFFF00000000, 80, prefixMask 128)] := by
  obtain ⟨p', rs, h1, _, h2, _, _, h3⟩ := C95_list sampleEnv fileParser _ _ _ fileParser_reads (by decide) file_written
  exact ⟨p', rs, h1, h2, h3⟩

/-- C95, as stated: in a file with one address per line, a line which is blank before its comment is skipped. -/
def C95_claim : Prop :=
  ∀ (env : ParseEnv) (p : Parser) (inp : Str), p.config.flags .multiAddressesNewlines = true → p.config.flags .multiAddressesCommas = false →
    p.config.flags .multiAddressesSpaces = false → ReadsList (forbidComments p) → '\x00' ∉ inp →
    (Parser.parse env inp p).2
      = (parseEach env (((fields (· == '\n') inp).map (beforeComment p)).filter fun e => Parser.trimString e ≠ []) (forbidComments p)).2

/-- C95 is false as stated: the indented comment of the second line is read as `0.0.0.0`. -/
theorem C95_claim_fails : ¬ C95_claim := by
  intro h
  have h1 := h sampleEnv fileParser "10.1.2.3 # one\n # two".toList (by decide) (by decide) (by decide) fileParser_reads (by decide)
  have h2 : (match (Parser.parse sampleEnv "10.1.2.3 # one\n # two".toList fileParser).2 with
    | .ok l => decide (l.map (ip ·.lo.getIpv6.addr) = [0xFFFF0A010203, 0xFFFF00000000])
    | _ => false) = true := by decide +kernel
  have h3 : ((fields (· == '\n') "10.1.2.3 # one\n # two".toList).map (beforeComment fileParser)).filter
      (fun e => Parser.trimString e ≠ []) = ["10.1.2.3 ".toList] := by
    rw [show beforeComment fileParser = fun e => e.takeWhile fun x => !(x == '#') from funext fun e => by
      rw [beforeComment]
      simp only [file_introduces]]
    decide
  have h4 : (match (parseEach sampleEnv ["10.1.2.3 ".toList] (forbidComments fileParser)).2 with
    | .ok l => decide (l.map (ip ·.lo.getIpv6.addr) = [0xFFFF0A010203, 0xFFFF00000000])
    | _ => false) = false := by decide +kernel
  rw [h1, h3, h4] at h2
  cases h2

/-- It holds for a file in which no line is only white space before its comment: the comment of a line without address starts the line. -/
theorem C95_blank_partial (env : ParseEnv) (p : Parser) (inp : Str) (hn : p.config.flags .multiAddressesNewlines = true)
    (hc : p.config.flags .multiAddressesCommas = false) (hs : p.config.flags .multiAddressesSpaces = false)
    (h : ReadsList (forbidComments p)) (hb : ∀ e ∈ pieces p inp, ∃ c ∈ e, c ∉ " \t\n\x0b\x0c\r".toList) :
    (Parser.parse env inp p).2
      = (parseEach env (((fields (· == '\n') inp).map (beforeComment p)).filter fun e => Parser.trimString e ≠ []) (forbidComments p)).2 := by
  rw [(parse_pieces env p inp h).1]
  rw [C95_lines p inp hn hc hs] at hb ⊢
  congr 2
  refine List.filter_congr fun e he => ?_
  by_cases h0 : e = []
  · subst h0
    rfl
  · obtain ⟨c, h1, h2⟩ := hb e (List.mem_filter.2 ⟨he, by simpa using h0⟩)
    have : Parser.trimString e ≠ [] := by
      intro h3
      obtain ⟨x, y, e1, hx, hy, _⟩ := trims_trim e
      rw [h3, List.append_nil] at e1
      rw [e1] at h1
      rcases List.mem_append.1 h1 with h1 | h1
      · exact h2 (hx c h1)
      · exact h2 (hy c h1)
    simp [h0, this]

/-- Such a file. -/
example : ∀ e ∈ pieces fileParser sampleFile, ∃ c ∈ e, c ∉ " \t\n\x0b\x0c\r".toList := by
  rw [file_pieces]
  decide

end Verif
