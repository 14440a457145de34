import Verif.Props.CommentNames
import Verif.Props.EntryOrder

/-! C157: files put one after the other (addr_parser.cpp:1037-1201, 1805-1885). Whatever else the parser allows (comments, masks, ports, ranges,
lookups), two lists with a separator between them are read as the first list and then the second one by the same parser, errors included; so are any number of
files. Sorting without merging only changes the order. A line which is a comment, and a new line at the end, may be added anywhere. -/

namespace Verif

open Spec

/-- The character may be put between two lists: it is a separator; where the parser reads lines with comments it has to be the new line, since a
comment runs to the end of the line. -/
def PutsTogether (p : Parser) (c : Char) : Prop :=
  separates p c = true
    ∧ (p.config.flags .multiAddressesNewlines = true → p.config.flags .commentHash = true ∨ p.config.flags .commentSemicolon = true → c = '\n')

/-! ### Lemmas -/

theorem fields_append {sep : Char → Bool} {c : Char} (hc : sep c = true) (t : Str) : ∀ s : Str,
    fields sep (s ++ c :: t) = fields sep s ++ fields sep t
  | [] => by rw [List.nil_append]; show fields sep (c :: t) = [] :: fields sep t; rw [fields, if_pos hc]
  | x :: s => by
    rw [List.cons_append, fields, fields, fields_append hc t s]
    split
    · rfl
    · cases h : fields sep s with
      | nil => exact absurd h (fields_ne sep s)
      | cons f fs => rfl

theorem pieces_append {p : Parser} {c : Char} (h : PutsTogether p c) (s t : Str) : pieces p (s ++ c :: t) = pieces p s ++ pieces p t := by
  obtain ⟨h1, h2⟩ := h
  rw [pieces, pieces, pieces]
  split
  next hh =>
    have : c = '\n' := h2 hh.1 (by
      cases ha : p.config.flags .commentHash with
      | true => exact .inl rfl
      | false => exact .inr (by
          cases hb : p.config.flags .commentSemicolon with
          | true => rfl
          | false => exact absurd ⟨ha, hb⟩ hh.2))
    rw [fields_append (by rw [this]; rfl), List.map_append, List.map_append, List.filter_append]
  next => rw [fields_append h1, List.map_append, List.filter_append]

namespace Parser

theorem seqEntries_append (env : ParseEnv) (l₂ : List Str) : ∀ l₁ : List Str,
    seqEntries env (l₁ ++ l₂) = seqEntries env l₁ >>= fun a => prepend a (seqEntries env l₂)
  | [] => by
    rw [List.nil_append, seqEntries]
    show _ = prepend [] (seqEntries env l₂)
    funext q
    rw [prepend]
    rcases h : seqEntries env l₂ q with ⟨q', x⟩
    cases x with
    | throw e => rw [PM.bind_of_throw h]
    | ub w => rw [PM.bind_of_ub h]
    | ok l => rw [PM.bind_of_ok h]; rfl
  | e :: l₁ => by
    rw [List.cons_append, seqEntries, seqEntries, seqEntries_append env l₂ l₁, PM.bind_assoc]
    congr 1
    funext a
    rw [prepend_bind, prepend, PM.bind_assoc]
    congr 1
    funext b
    rw [prepend, prepend, PM.bind_assoc]
    show _ = prepend (a ++ b) (seqEntries env l₂)
    rw [prepend]
    congr 1
    funext d
    show (Pure.pure (a ++ (b ++ d)) : PM (List Range)) = Pure.pure (a ++ b ++ d)
    rw [List.append_assoc]

end Parser

theorem pieces_config {p q : Parser} (h : q.config = p.config) (s : Str) : pieces q s = pieces p s := by
  rw [← pieces_eq, ← pieces_eq, h]

/-! ### C157 -/

/-- C157: two lists with a separator between them are read as the first one and then the second one, by the same parser. -/
theorem C157_two (env : ParseEnv) (p : Parser) (s t : Str) (c : Char) (hl : ListMode p) (hu : Unsorted p) (hc : PutsTogether p c) :
    Parser.parse env (s ++ c :: t) p = parseEach env [s, t] p := by
  have hk (q : Parser) (hq : q.config = p.config) : ListMode q ∧ Unsorted q := by
    unfold ListMode Unsorted
    rw [hq]
    exact ⟨hl, hu⟩
  rw [parse_unsorted env _ p hl hu, pieces_eq, pieces_append hc, Parser.seqEntries_append, parseEach, parse_unsorted env s p hl hu, pieces_eq]
  obtain ⟨errs, r, h⟩ := Parser.logging_seqEntries env p.config (pieces p s)
  have h1 := h p rfl
  rw [h1]
  cases r with
  | throw e => rw [PM.bind_of_throw h1]
  | ub w => rw [PM.bind_of_ub h1]
  | ok l =>
    rw [PM.bind_of_ok h1, Parser.prepend]
    dsimp only
    rw [parseEach, parse_unsorted env t (Parser.emitAll errs p) (hk _ rfl).1 (hk _ rfl).2, pieces_eq, pieces_config (p := p) (q := Parser.emitAll errs p) rfl]
    rcases h2 : Parser.seqEntries env (pieces p t) (Parser.emitAll errs p) with ⟨q', x⟩
    cases x with
    | throw e => rw [PM.bind_of_throw h2]
    | ub w => rw [PM.bind_of_ub h2]
    | ok l' =>
      rw [PM.bind_of_ok h2]
      dsimp only [parseEach]
      rw [List.append_nil]
      rfl

/-- C157: so are any number of lists. -/
theorem C157_files (env : ParseEnv) (c : Char) : ∀ (files : List Str) (p : Parser), ListMode p → Unsorted p → PutsTogether p c →
    Parser.parse env ([c].intercalate files) p = parseEach env files p
  | [], p, hl, hu, _ => by
    rw [parse_unsorted env _ p hl hu, pieces_eq]
    have : pieces p [] = [] := by
      rw [pieces]
      split <;> simp [fields, beforeComment]
    show Parser.seqEntries env (pieces p []) p = _
    rw [this]
    rfl
  | [s], p, _, _, _ => by
    show Parser.parse env ([c].intercalate [s]) p = _
    rw [List.intercalate_singleton, parseEach]
    rcases Parser.parse env s p with ⟨q, x⟩
    cases x with
    | throw e => rfl
    | ub w => rfl
    | ok l =>
      dsimp only [parseEach]
      rw [List.append_nil]
  | s :: t :: files, p, hl, hu, hc => by
    have e1 : [c].intercalate (s :: t :: files) = s ++ c :: [c].intercalate (t :: files) := by
      rw [List.intercalate_cons_cons]
      simp
    rw [e1, C157_two env p s _ c hl hu hc, parseEach, parseEach]
    have hq := parse_keeps env s p
    rcases hh : Parser.parse env s p with ⟨q, x⟩
    rw [hh] at hq
    cases x with
    | throw e => rfl
    | ub w => rfl
    | ok l =>
      have hq' : q.config = p.config := hq
      dsimp only
      rw [← C157_files env c (t :: files) q (by unfold ListMode; rw [hq']; exact hl) (by unfold Unsorted; rw [hq']; exact hu)
        (by
          obtain ⟨h1, h2⟩ := hc
          refine ⟨?_, by rw [hq']; exact h2⟩
          rw [← isSep_eq, hq', isSep_eq]
          exact h1), parseEach]
      rcases Parser.parse env ([c].intercalate (t :: files)) q with ⟨q', y⟩
      cases y with
      | throw e => rfl
      | ub w => rfl
      | ok l' =>
        dsimp only [parseEach]
        rw [List.append_nil]

/-- C157: when the lists are also sorted, but not merged, the two lists read apart and the list read at once have the same ranges and match the same addresses. -/
theorem C157_sorted (env : ParseEnv) (p : Parser) (s t : Str) (c : Char) (hl : ListMode p) (hm : p.config.sort &&& SORT_MERGE = 0) (hc : PutsTogether p c)
    (l l' : List Range) (h : (Parser.parse env s p).2 = .ok l) (h' : (Parser.parse env t p).2 = .ok l') :
    ∃ m, (Parser.parse env (s ++ c :: t) p).2 = .ok m ∧ m.Perm (l ++ l')
      ∧ ∀ a : Addr, ∃ b b', addressMatchRanges l a = .ok b ∧ addressMatchRanges l' a = .ok b' ∧ addressMatchRanges m a = .ok (b || b') := by
  have hlu : ListMode (unsortedOf p) := by rw [ListMode, unsortedOf_config]; exact hl
  have hcu : PutsTogether (unsortedOf p) c := by
    obtain ⟨h1, h2⟩ := hc
    refine ⟨?_, by rw [unsortedOf_config]; exact h2⟩
    rw [← isSep_eq, unsortedOf_config]
    rw [← isSep_eq] at h1
    exact h1
  have h2 := C157_two env (unsortedOf p) s t c hlu (unsorted_unsortedOf p) hcu
  obtain ⟨k, g⟩ := unsorted_read h
  obtain ⟨k', g'⟩ := unsorted_read h'
  obtain ⟨errs, r, hs⟩ := Parser.logging_parse env (unsortedOf p).config s
  obtain ⟨errs', r', ht⟩ := Parser.logging_parse env (unsortedOf p).config t
  have hs1 := hs _ rfl
  have ht1 := ht (Parser.emitAll errs (unsortedOf p)) rfl
  rw [hs1] at g
  rw [ht _ rfl] at g'
  dsimp only at g g'
  subst g g'
  rw [parseEach, hs1] at h2
  dsimp only at h2
  rw [parseEach, ht1] at h2
  dsimp only [parseEach] at h2
  rw [List.append_nil] at h2
  obtain ⟨n, n1, n2, _⟩ := C43_sort_permutes env s p hm k (by rw [hs1])
  obtain ⟨n', n1', n2', _⟩ := C43_sort_permutes env t p hm k' (by rw [ht _ rfl])
  obtain ⟨m, m1, m2, _⟩ := C43_sort_permutes env (s ++ c :: t) p hm (k ++ k') (by rw [h2])
  rw [h] at n1
  rw [h'] at n1'
  cases n1
  cases n1'
  have hp : m.Perm (l ++ l') := m2.trans (n2.symm.append n2'.symm)
  refine ⟨m, m1, hp, fun a => ?_⟩
  obtain ⟨b, k1, k2⟩ := C35_any_range l a
  obtain ⟨b', k3, k4⟩ := C35_any_range l' a
  obtain ⟨b2, k5, k6⟩ := C35_any_range m a
  refine ⟨b, b', k1, k3, k5.trans (congrArg Res.ok (Bool.eq_iff_iff.2 ?_))⟩
  rw [Bool.or_eq_true, k2, k4, k6]
  constructor
  · rintro ⟨r, hr, hx⟩
    rcases List.mem_append.1 (hp.mem_iff.1 hr) with hr | hr
    · exact .inl ⟨r, hr, hx⟩
    · exact .inr ⟨r, hr, hx⟩
  · rintro (⟨r, hr, hx⟩ | ⟨r, hr, hx⟩)
    · exact ⟨r, hp.mem_iff.2 (List.mem_append.2 (.inl hr)), hx⟩
    · exact ⟨r, hp.mem_iff.2 (List.mem_append.2 (.inr hr)), hx⟩

/-- C157: whatever the order, a text without anything to read may be put in between. -/
theorem C157_nothing (env : ParseEnv) (p : Parser) (s u t : Str) (c : Char) (hl : ListMode p) (hc : PutsTogether p c) (hu : pieces p u = []) :
    Parser.parse env (s ++ c :: (u ++ c :: t)) p = Parser.parse env (s ++ c :: t) p
      ∧ Parser.parse env (s ++ c :: u) p = Parser.parse env s p ∧ Parser.parse env (u ++ c :: t) p = Parser.parse env t p := by
  refine ⟨C152_same_pieces env p _ _ hl ?_, C152_same_pieces env p _ _ hl ?_, C152_same_pieces env p _ _ hl ?_⟩
  · rw [pieces_append hc, pieces_append hc, pieces_append hc, hu, List.nil_append]
  · rw [pieces_append hc, hu, List.append_nil]
  · rw [pieces_append hc, hu, List.nil_append]

/-- C157: such are the empty text, so that a separator at the end changes nothing, and a line which is a comment. -/
theorem C157_comment_line (p : Parser) (x : Char) (v : Str) (hx : introduces p x = true)
    (hv : ∀ y ∈ v, if p.config.flags .multiAddressesNewlines = true then y ≠ '\n' else separates p y = false) :
    pieces p (x :: v) = [] ∧ pieces p [] = [] := by
  have hcom : ¬ (p.config.flags .commentHash = false ∧ p.config.flags .commentSemicolon = false) := by
    rintro ⟨h1, h2⟩
    simp [introduces, h1, h2] at hx
  have hxs : separates p x = false := by
    have : x = '#' ∨ x = ';' := by
      simp only [introduces, Bool.or_eq_true, Bool.and_eq_true, beq_iff_eq] at hx
      rcases hx with ⟨_, h⟩ | ⟨_, h⟩
      · exact .inl h
      · exact .inr h
    rcases this with rfl | rfl <;> simp [separates]
  have hb (w : Str) : beforeComment p (x :: w) = [] := by
    rw [beforeComment, List.takeWhile_cons_of_neg (by simp [hx])]
  refine ⟨?_, ?_⟩
  · by_cases hn : p.config.flags .multiAddressesNewlines = true
    · rw [pieces, if_pos ⟨hn, hcom⟩]
      have hx' : (x == '\n') = false := by
        cases h : x == '\n' with
        | false => rfl
        | true =>
          rw [beq_iff_eq.1 h] at hxs
          simp [separates, hn] at hxs
      rw [fields_self (· == '\n') (x :: v) (by
        intro y hy
        rcases List.mem_cons.1 hy with rfl | hy
        · exact hx'
        · have := hv y hy
          rw [if_pos hn] at this
          exact beq_eq_false_iff_ne.2 this)]
      have hf : ∃ w fs, fields (separates p) (x :: v) = (x :: w) :: fs := by
        rw [fields_eq, List.takeWhile_cons_of_pos (by simp [hxs])]
        exact ⟨_, _, rfl⟩
      obtain ⟨w, fs, hf⟩ := hf
      simp [hf, hb]
    · rw [pieces, if_neg (by rintro ⟨h, _⟩; exact hn h), fields_self (separates p) (x :: v) (by
        intro y hy
        rcases List.mem_cons.1 hy with rfl | hy
        · exact hxs
        · have := hv y hy
          rw [if_neg hn] at this
          exact this)]
      simp [hb]
  · rw [pieces]
    split <;> simp [fields, beforeComment]

/-! ### Cases -/

/-- A parser of files of addresses with comments after a hash which also takes commas. -/
def commaFileParser : Parser := ParserOp.runAll [(sampleEnv, .setAllow 2 true)] fileParser

/-- C157: where lines have comments, a comma does not put two lists together: what is after it is part of the first line, which is skipped. -/
theorem C157_comma :
    (match (Parser.parse sampleEnv "10.0.0.1,10.0.0.2".toList commaFileParser).2 with | .ok l => l.length | _ => 0) = 1
      ∧ (match (parseEach sampleEnv ["10.0.0.1".toList, "10.0.0.2".toList] commaFileParser).2 with | .ok l => l.length | _ => 0) = 2 := by
  decide +kernel

/-- C157_two and C157_files on files with comments and an error. -/
example : ListMode fileParser ∧ Unsorted fileParser ∧ PutsTogether fileParser '\n'
    ∧ (match Parser.parse sampleEnv "10.0.0.1 # one\nx # two\n10.0.0.3".toList fileParser with
        | (q, .ok l) => decide (l.map (ip ·.lo.getIpv6.addr) = [0xFFFF0A000001, 0xFFFF0A000003] ∧ q.getErrorCount = 1)
        | _ => false) = true
    ∧ "10.0.0.1 # one\nx # two\n10.0.0.3".toList = ['\n'].intercalate ["10.0.0.1 # one".toList, "x # two".toList, "10.0.0.3".toList] := by
  refine ⟨by unfold ListMode; decide +kernel, by unfold Unsorted; decide +kernel, ⟨by decide +kernel, fun _ _ => rfl⟩, ?_, by decide +kernel⟩
  decide +kernel

/-- C157_sorted applies to the parser of C114. -/
example : ListMode accessParser ∧ accessParser.config.sort &&& SORT_MERGE = 0 ∧ PutsTogether accessParser ','
    ∧ (match (Parser.parse sampleEnv "10.0.0.2".toList accessParser).2 with | .ok l => l.length | _ => 0) = 1 := by
  refine ⟨by unfold ListMode; decide +kernel, by decide +kernel, ⟨by decide +kernel, by decide +kernel⟩, by decide +kernel⟩

/-- C157_comment_line: a comment with a separator in it. -/
example : introduces fileParser '#' = true ∧ pieces fileParser "# old, 10.0.0.9".toList = [] :=
  ⟨by decide +kernel, (C157_comment_line fileParser '#' " old, 10.0.0.9".toList (by decide +kernel) (by decide +kernel)).1⟩

end Verif
