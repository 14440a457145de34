import Verif.Props.LookupNetworks
import Verif.Props.CommentList
import Verif.Lemmas.ToolWords

/-! C152: files of host names with comments (addr_parser.cpp:1037-1201, 1215-1290, 1701-1885). A list with comments is read as the list of
its pieces by a parser without comments, whatever the rest of the configuration: lookups, masks, ranges, sorting and merging. Hence only what is
outside the comments is asked for, and a file of host names lets in what the name service gives for its lines. -/

namespace Verif

open Spec

/-- A parser of files of host names: lists with lookups, without masks and ranges; it may have comments, sort and merge. -/
structure NamesFile (p : Parser) (inp : Str) : Prop where
  lookup : p.config.flags .addressLookup = true
  mask : p.config.flags .mask = false
  range : p.config.flags .addressRange = false ∨ ∀ e ∈ pieces p inp, '-' ∉ e
  list : ListMode p

/-- A parser of files of hosts and networks around hosts: lists with lookups and masks, which are numbers of bits. -/
structure NetworksFile (p : Parser) (inp : Str) : Prop where
  lookup : p.config.flags .addressLookup = true
  mask : p.config.flags .mask = true
  number : p.config.flags .addressMask = false
  range : p.config.flags .addressRange = false ∨ ∀ e ∈ pieces p inp, '-' ∉ e
  list : ListMode p
  mask4 : p.config.defaultMask4 = []
  mask6 : p.config.defaultMask6 = []

/-- A character which separates the items of the lists. -/
def separatorOf (p : Parser) : Char :=
  if p.config.flags .multiAddressesCommas then ',' else if p.config.flags .multiAddressesSpaces then ' ' else '\n'

/-- The items one after the other, with a separator after each of them. -/
def piecesText (c : Char) : List Str → Str
  | [] => []
  | e :: es => e ++ c :: piecesText c es

/-! ### Lemmas -/

section
variable {env : ParseEnv} {p : Parser}

theorem separatorOf_separates (hl : ListMode p) : separates p (separatorOf p) = true := by
  rw [separatorOf]
  by_cases h1 : p.config.flags .multiAddressesCommas = true
  · simp [h1, separates]
  · rw [if_neg h1]
    by_cases h2 : p.config.flags .multiAddressesSpaces = true
    · simp [h2, separates]
    · rw [if_neg h2]
      rcases hl with h | h | h
      · exact absurd h h1
      · exact absurd h h2
      · simp [h, separates]

theorem fields_piecesText {sep : Char → Bool} {c : Char} (hc : sep c = true) : ∀ {es : List Str}, (∀ e ∈ es, e ≠ [] ∧ ∀ x ∈ e, sep x = false) →
    (fields sep (piecesText c es)).filter (· ≠ []) = es
  | [], _ => rfl
  | e :: es, h => by
    rw [piecesText, fields_sep sep e _ c (h e List.mem_cons_self).2 hc, List.filter_cons_of_pos (by simpa using (h e List.mem_cons_self).1),
      fields_piecesText hc fun e' he' => h e' (List.mem_cons_of_mem _ he')]

theorem piecesText_mem {c x : Char} : ∀ {es : List Str}, x ∈ piecesText c es → x = c ∨ ∃ e ∈ es, x ∈ e
  | [], h => nomatch h
  | e :: es, h => by
    rw [piecesText, List.mem_append, List.mem_cons] at h
    rcases h with h | h | h
    · exact .inr ⟨e, List.mem_cons_self, h⟩
    · exact .inl h
    · exact (piecesText_mem h).imp_right fun ⟨e', h1, h2⟩ => ⟨e', List.mem_cons_of_mem _ h1, h2⟩

theorem separatorOf_cases (p : Parser) : separatorOf p = ',' ∨ separatorOf p = ' ' ∨ separatorOf p = '\n' := by
  rw [separatorOf]
  split
  · exact .inl rfl
  · split
    · exact .inr (.inl rfl)
    · exact .inr (.inr rfl)

theorem forbid_list (h : ListMode p) : ListMode (forbidComments p) := h

theorem pieces_unsorted (p : Parser) (inp : Str) : pieces (unsortedOf p) inp = pieces p inp := by
  have h1 : separates (unsortedOf p) = separates p := by
    funext x
    rw [separates, separates, unsortedOf_config]
  have h2 : beforeComment (unsortedOf p) = beforeComment p := by
    funext e
    rw [beforeComment, beforeComment]
    congr 1
    funext x
    rw [introduces, introduces, unsortedOf_config]
  rw [pieces, pieces, h1, h2, unsortedOf_config]

/-- `parse_pieces` with the hypotheses it needs. -/
theorem pieces_read (env : ParseEnv) (p : Parser) (inp : Str) (hl : ListMode p) (hs : Unsorted p) :
    (Parser.parse env inp p).2 = (parseEach env (pieces p inp) (forbidComments p)).2
      ∧ (Parser.parse env inp p).1.error = (parseEach env (pieces p inp) (forbidComments p)).1.error
      ∧ (Parser.parse env inp p).1.errorCount = (parseEach env (pieces p inp) (forbidComments p)).1.errorCount := by
  obtain ⟨f1, f2, f3, f4, f5⟩ := forbid_config p
  rw [parse_unsorted env inp p hl hs, pieces_eq, parseEach_eq env _ _ (forbid_list hl) (by rw [Unsorted, f2]; exact hs)]
  · have := Parser.rel_seqEntries f5 env (pieces p inp) p (forbidComments p) rfl rfl f3.symm f4.symm
    exact ⟨this.1, this.2.1, this.2.2.1⟩
  · intro e he
    obtain ⟨⟨h1, h2, _⟩, _⟩ := pieces_mem he
    exact ⟨h1, fun x hx => by rw [isSep_eq]; exact h2 x hx, by simp [Parser.entryText, (noComments_iff _).2 (forbid_none p)]⟩

theorem parser_ext {p p' : Parser} (h1 : p.error = p'.error) (h2 : p.errorCount = p'.errorCount) (h3 : p.config = p'.config) : p = p' := by
  rcases p with ⟨a, b, d⟩
  rcases p' with ⟨a', b', d'⟩
  obtain rfl := h1
  obtain rfl := h2
  obtain rfl := h3
  rfl

theorem unsorted_forbid (p : Parser) : unsortedOf (forbidComments p) = forbidComments (unsortedOf p) := by
  refine parser_ext ?_ ?_ ?_
  · rw [(unsortedOf_error _).1, (forbid_config p).2.2.1, (forbid_config (unsortedOf p)).2.2.1, (unsortedOf_error p).1]
  · rw [(unsortedOf_error _).2, (forbid_config p).2.2.2.1, (forbid_config (unsortedOf p)).2.2.2.1, (unsortedOf_error p).2]
  · rw [unsortedOf_config]
    have (q : Parser) : (forbidComments q).config = { q.config with flags := (forbidComments q).config.flags } := rfl
    rw [this p, this (unsortedOf p), (forbid_config p).1, (forbid_config (unsortedOf p)).1, unsortedOf_config]

theorem parse_keeps (env : ParseEnv) (inp : Str) (p : Parser) : (Parser.parse env inp p).1.config = p.config := by
  obtain ⟨errs, r, hlog⟩ := Parser.logging_parse env p.config inp
  rw [hlog p rfl]
  rfl

end

/-! ### C152 -/

/-- C152: whatever is allowed and in whatever order it is sorted, a list with comments is read as any list of its pieces by the parser which
does not allow comments. -/
theorem C152_bare (env : ParseEnv) (p : Parser) (inp inp' : Str) (hl : ListMode p) (hi : items (forbidComments p) inp' = pieces p inp) :
    (Parser.parse env inp p).2 = (Parser.parse env inp' (forbidComments p)).2
      ∧ (Parser.parse env inp p).1.error = (Parser.parse env inp' (forbidComments p)).1.error
      ∧ (Parser.parse env inp p).1.errorCount = (Parser.parse env inp' (forbidComments p)).1.errorCount
      ∧ (Parser.parse env inp p).1.config = p.config := by
  have hlu : ListMode (unsortedOf p) := by rw [ListMode, unsortedOf_config]; exact hl
  have hsu : Unsorted (forbidComments (unsortedOf p)) := by
    rw [Unsorted, (forbid_config _).2.1]
    exact unsorted_unsortedOf p
  have h1 := pieces_read env (unsortedOf p) inp hlu (unsorted_unsortedOf p)
  have h2 := C41_entrywise env inp' (forbidComments (unsortedOf p)) (forbid_list hlu) (forbid_none _) hsu
  have h3 : (fields (separates (forbidComments (unsortedOf p))) inp').filter (· ≠ []) = pieces (unsortedOf p) inp := by
    rw [← unsorted_forbid, pieces_unsorted, ← hi, ← items_unsorted (p := forbidComments p)]
    rfl
  rw [h3, ← unsorted_forbid] at h2
  rw [← unsorted_forbid, ← h2] at h1
  obtain ⟨a1, a2, a3, a4, a5⟩ := parse_sort env inp p
  obtain ⟨b1, b2, b3, b4, b5⟩ := parse_sort env inp' (forbidComments p)
  refine ⟨?_, a1.trans (h1.2.1.trans b1.symm), a2.trans (h1.2.2.trans b2.symm), parse_keeps env inp p⟩
  have h4 := h1.1
  generalize hx : (Parser.parse env inp (unsortedOf p)).2 = x at h4
  cases x with
  | throw e => rw [a3 e hx, b3 e h4.symm]
  | ub w => rw [a4 w hx, b4 w h4.symm]
  | ok l => rw [(a5 l hx).2, (b5 l h4.symm).2, (forbid_config p).2.1]

/-- C152: there is such a list: the pieces, each followed by a separator. -/
theorem C152_bare_exists (p : Parser) (inp : Str) (hl : ListMode p) :
    items (forbidComments p) (piecesText (separatorOf p) (pieces p inp)) = pieces p inp := by
  refine fields_piecesText ?_ fun e he => ?_
  · rw [forbid_separates]
    exact separatorOf_separates hl
  · exact ⟨(pieces_mem he).1.1, (pieces_mem he).1.2⟩

/-- C152: two lists with the same pieces are read alike: what is in the comments is never looked at. -/
theorem C152_same_pieces (env : ParseEnv) (p : Parser) (inp inp' : Str) (hl : ListMode p) (hp : pieces p inp = pieces p inp') :
    Parser.parse env inp p = Parser.parse env inp' p := by
  have h1 := C152_bare env p inp _ hl (C152_bare_exists p inp hl)
  have h2 := C152_bare env p inp' _ hl (C152_bare_exists p inp' hl)
  rw [hp] at h1
  exact Prod.ext (parser_ext (h1.2.1.trans h2.2.1.symm) (h1.2.2.1.trans h2.2.2.1.symm) (h1.2.2.2.trans h2.2.2.2.symm)) (h1.1.trans h2.1.symm)

section
variable {env : ParseEnv} {p : Parser}

theorem asks_forbid {t u q : Str} : Asks (forbidComments p) t u q ↔ Asks p t u q := by
  have hp : PortsAllowed (forbidComments p) = PortsAllowed p := rfl
  have hn {t q : Str} : NoAddress (forbidComments p) t q = NoAddress p t q := rfl
  have hd {t : Str} : defaultText (forbidComments p).config t = defaultText p.config t := rfl
  constructor
  · intro h
    cases h with
    | name h1 h2 h3 => exact .name h1 h2 h3
    | port h1 h2 h3 h4 h5 => exact .port h1 h2 h3 h4 h5
    | six h1 h2 => exact .six h1 h2
    | bracket h1 h2 => exact .bracket h1 h2
    | bracketPort h1 h2 h3 => exact .bracketPort h1 h2 h3
    | default hr h => exact .default hr h
    | defaultPort hr hq k4 k6 => exact .defaultPort hr hq k4 k6
  · intro h
    cases h with
    | name h1 h2 h3 => exact .name h1 h2 h3
    | port h1 h2 h3 h4 h5 => exact .port h1 h2 h3 h4 h5
    | six h1 h2 => exact .six h1 h2
    | bracket h1 h2 => exact .bracket h1 h2
    | bracketPort h1 h2 h3 => exact .bracketPort h1 h2 h3
    | default hr h => exact .default (p := forbidComments p) hr h
    | defaultPort hr hq k4 k6 => exact .defaultPort (p := forbidComments p) hr hq k4 k6

theorem answer_forbid (u q : Str) : answerTo env (forbidComments p) u q = answerTo env p u q := rfl

theorem question_forbid {e u q : Str} : Question (forbidComments p) e u q ↔ Question p e u q := by
  unfold Question
  simp only [asks_forbid]
  rfl

theorem givenFor_forbid {e : Str} {n : Nat} : GivenFor env (forbidComments p) e n ↔ GivenFor env p e n := by
  unfold GivenFor
  simp only [question_forbid, answer_forbid]

theorem givesNetwork_forbid {e : Str} {n k : Nat} : GivesNetwork env (forbidComments p) e n k ↔ GivesNetwork env p e n k := by
  unfold GivesNetwork
  simp only [asks_forbid, answer_forbid]
  rfl

theorem answered_forbid {es : List Str} {m : List ((Str × Str) × AddrInfo)} {c : Nat} (h : Answered env p es m c) :
    Answered env (forbidComments p) es m c := by
  induction h with
  | nil => exact .nil
  | found hq hl _ ih => exact .found (question_forbid.2 hq) hl ih
  | unknown hq hl _ ih => exact .unknown (question_forbid.2 hq) hl ih
  | refused hq _ ih => exact .refused (fun ⟨u, q, h⟩ => hq ⟨u, q, question_forbid.1 h⟩) ih

theorem bare_range {inp : Str} (h : p.config.flags .addressRange = false ∨ ∀ e ∈ pieces p inp, '-' ∉ e) :
    (forbidComments p).config.flags .addressRange = false ∨ '-' ∉ piecesText (separatorOf p) (pieces p inp) := by
  refine h.imp id fun h hm => ?_
  rcases piecesText_mem hm with h1 | ⟨e, h1, h2⟩
  · rcases separatorOf_cases p with h2 | h2 | h2 <;> rw [h2] at h1 <;> exact absurd h1 (by decide)
  · exact h e h1 h2

theorem namesFile_bare {inp : Str} (h : NamesFile p inp) : NamesList (forbidComments p) (piecesText (separatorOf p) (pieces p inp)) where
  lookup := h.lookup
  mask := h.mask
  range := bare_range h.range
  list := forbid_list h.list
  comments := forbid_none p

theorem networksFile_bare {inp : Str} (h : NetworksFile p inp) : NetworkNames (forbidComments p) (piecesText (separatorOf p) (pieces p inp)) where
  lookup := h.lookup
  mask := h.mask
  number := h.number
  range := bare_range h.range
  list := forbid_list h.list
  comments := forbid_none p
  mask4 := h.mask4
  mask6 := h.mask6

end

/-- C152: the result is made of the usable answers to the questions of the pieces, in their order: there is one error for each bad answer, for
each name which is not known and for each piece which asks nothing. -/
theorem C152_list (env : ParseEnv) (p : Parser) (inp : Str) (m : List ((Str × Str) × AddrInfo)) (c : Nat) (h : NamesFile p inp) (hu : Unsorted p)
    (hs : SafeAnswers env) (ha : Answered env p (pieces p inp) m c) :
    ∃ p' rs, Parser.parse env inp p = (p', .ok rs)
      ∧ Each (fun (x : (Str × Str) × AddrInfo) r => FromAnswer x.1.1 x.1.2 x.2 r) m rs
      ∧ p'.config = p.config ∧ p'.getErrorCount = p.getErrorCount + c ∧ (c = 0 → p' = p) := by
  have hb := C152_bare_exists p inp h.list
  obtain ⟨b1, b2, b3, b4⟩ := C152_bare env p inp _ h.list hb
  have hn := namesFile_bare h
  obtain ⟨p', rs, h1, h2, _, h3, h4⟩ := C147_list env (forbidComments p) _ m c ⟨hn.lookup, hn.mask, hn.range, hn.list, hn.comments, hu⟩ hs
    (by rw [hb]; exact answered_forbid ha)
  rw [h1] at b1 b2 b3
  refine ⟨(Parser.parse env inp p).1, rs, Prod.ext rfl b1, h2, b4, ?_, fun h0 => ?_⟩
  · rw [Parser.getErrorCount, b3]
    exact h3
  · rw [h4 h0] at b2 b3
    exact parser_ext b2 b3 b4

/-- C152: in any order, merged or not, the file which is read matches exactly the addresses given by the name service for its pieces. -/
theorem C152_matches (env : ParseEnv) (p : Parser) (inp : Str) (h : NamesFile p inp) (hs : SafeAnswers env) :
    ∃ l, (Parser.parse env inp p).2 = .ok l
      ∧ ∀ a : Addr, ∃ b, addressMatchRanges l a = .ok b ∧ (b = true ↔ ∃ e ∈ pieces p inp, GivenFor env p e (ip a.getIpv6.addr)) := by
  have hb := C152_bare_exists p inp h.list
  obtain ⟨l, h1, h2⟩ := C148_matches env (forbidComments p) _ (namesFile_bare h) hs
  refine ⟨l, (C152_bare env p inp _ h.list hb).1.trans h1, fun a => ?_⟩
  obtain ⟨b, j1, j2⟩ := h2 a
  refine ⟨b, j1, j2.trans ?_⟩
  simp only [hb, givenFor_forbid]

/-- C152: a file of hosts and networks around hosts, not merged, matches exactly the addresses of the networks which its pieces give. -/
theorem C152_networks (env : ParseEnv) (p : Parser) (inp : Str) (h : NetworksFile p inp) (hm : p.config.sort &&& SORT_MERGE = 0)
    (hs : SafeAnswers env) (hnul : ∀ i ∈ pieces p inp, '\x00' ∉ i)
    (hn : ∀ i ∈ pieces p inp, ∀ t e m, Trims i t → CutMask t e m → ¬ LeftOut e) :
    ∃ l, (Parser.parse env inp p).2 = .ok l
      ∧ ∀ a : Addr, ∃ b, addressMatchRanges l a = .ok b
        ∧ (b = true ↔ ∃ i ∈ pieces p inp, ∃ n k, GivesNetwork env p i n k ∧ InNetwork (ip a.getIpv6.addr) n k) := by
  have hb := C152_bare_exists p inp h.list
  obtain ⟨l, h1, h2⟩ := C150_matches_partial env (forbidComments p) (piecesText (separatorOf p) (pieces p inp)) (networksFile_bare h) hm hs
    (fun hx => by
      rcases piecesText_mem hx with h1 | ⟨e, h1, h2⟩
      · rcases separatorOf_cases p with h2 | h2 | h2 <;> rw [h2] at h1 <;> exact absurd h1 (by decide)
      · exact hnul e h1 h2)
    (by rw [hb]; exact hn)
  refine ⟨l, (C152_bare env p inp _ h.list hb).1.trans h1, fun a => ?_⟩
  obtain ⟨b, j1, j2⟩ := h2 a
  refine ⟨b, j1, j2.trans ?_⟩
  simp only [hb, givesNetwork_forbid]

/-- C152: in a file with one name per line the names asked for are the lines up to their comments: an address is let in exactly if it is given
for one of these. -/
theorem C152_lines (env : ParseEnv) (p : Parser) (inp : Str) (h : NamesFile p inp) (hs : SafeAnswers env)
    (h1 : p.config.flags .multiAddressesNewlines = true) (h2 : p.config.flags .multiAddressesCommas = false)
    (h3 : p.config.flags .multiAddressesSpaces = false) :
    ∃ l, (Parser.parse env inp p).2 = .ok l ∧ ∀ a : Addr, ∃ b, addressMatchRanges l a = .ok b
      ∧ (b = true ↔ ∃ line ∈ fields (· == '\n') inp, beforeComment p line ≠ [] ∧ GivenFor env p (beforeComment p line) (ip a.getIpv6.addr)) := by
  obtain ⟨l, g1, g2⟩ := C152_matches env p inp h hs
  refine ⟨l, g1, fun a => ?_⟩
  obtain ⟨b, j1, j2⟩ := g2 a
  refine ⟨b, j1, j2.trans ?_⟩
  rw [C95_lines p inp h1 h2 h3]
  constructor
  · rintro ⟨e, he, hg⟩
    rw [List.mem_filter] at he
    obtain ⟨line, hl, rfl⟩ := List.mem_map.1 he.1
    exact ⟨line, hl, by simpa using he.2, hg⟩
  · rintro ⟨line, hl, h0, hg⟩
    exact ⟨_, List.mem_filter.2 ⟨List.mem_map.2 ⟨line, hl, rfl⟩, by simpa using h0⟩, hg⟩

/-! ### A file -/

/-- Names on lines, with comments, merged. -/
def hostFileParser : Parser :=
  ParserOp.runAll [(sampleEnv, .setAllow 4 true), (sampleEnv, .setAllow 11 true), (sampleEnv, .setProtocol 6), (sampleEnv, .setSortOrder SORT_MERGE)]
    Parser.create

theorem hostFileParser_names (inp : Str) : NamesFile hostFileParser inp :=
  ⟨by decide, by decide, .inl (by decide), by unfold ListMode; decide⟩

-- C152_lines: the address of `gate` is matched.
example : ∃ l, (Parser.parse hostsEnv "# doors\ngates:80\ngate:80# front - door\n".toList hostFileParser).2 = .ok l
    ∧ addressMatchRanges l (sampleV4 10 0 0 1) = .ok true := by
  obtain ⟨l, h1, h2⟩ := C152_lines hostsEnv hostFileParser "# doors\ngates:80\ngate:80# front - door\n".toList (hostFileParser_names _) hostsEnv_safe
    (by decide) (by decide) (by decide)
  refine ⟨l, h1, ?_⟩
  obtain ⟨b, h3, h4⟩ := h2 (sampleV4 10 0 0 1)
  have hb : beforeComment hostFileParser "gate:80# front - door".toList = "gate:80".toList := by decide +kernel
  rw [h3, h4.2 ⟨"gate:80# front - door".toList, by decide +kernel, by rw [hb]; decide, by
    rw [hb]
    exact ⟨"gate".toList, "80".toList, _, _,
      ⟨_, trims_self (by decide) (by decide), .port (u := "gate".toList) (by decide) (by decide) (by decide) (by decide) (.inl (.inl (by decide))),
        .inl (by decide)⟩, (by decide +kernel : answerTo hostsEnv hostFileParser "gate".toList "80".toList
        = .list (spread 6 [.inet sizeofIn 0 { family := AF_INET, port := 0x5000, addr := #v[10, 0, 0, 1], zero := Vector.replicate 8 0 }])),
        List.mem_cons_self, by decide, by decide +kernel⟩⟩]

-- C152_same_pieces: what is after `#` may be anything.
example : Parser.parse hostsEnv "gate:80#a".toList hostFileParser = Parser.parse hostsEnv "\ngate:80# gates:80".toList hostFileParser :=
  C152_same_pieces _ _ _ _ (hostFileParser_names []).list (by decide +kernel)

end Verif
