import Verif.SpecList
import Verif.Lemmas.ParserAppend
import Verif.Lemmas.ParserText
import Verif.Lemmas.ParserAgree

/-!
# Lemmas about the parser: the entries of a list
-/

namespace Verif

theorem takeWhile_self {p : Char → Bool} {s : Str} (h : ∀ x ∈ s, p x = true) : s.takeWhile p = s := by
  induction s with
  | nil => rfl
  | cons x s ih =>
    rw [List.takeWhile_cons, if_pos (h x List.mem_cons_self), ih fun y hy => h y (List.mem_cons_of_mem _ hy)]

theorem takeWhile_idem (p : Char → Bool) (s : Str) : (s.takeWhile p).takeWhile p = s.takeWhile p :=
  takeWhile_self fun x hx => List.all_eq_true.1 List.all_takeWhile x hx

theorem fields_eq (sep : Char → Bool) (s : Str) :
    fields sep s = s.takeWhile (fun x => !sep x) ::
      (match s.dropWhile (fun x => !sep x) with | [] => [] | _ :: t => fields sep t) := by
  induction s with
  | nil => rfl
  | cons x s ih =>
    rw [fields]
    by_cases h : sep x = true
    · simp [h]
    · rw [if_neg h, ih]
      simp only [Bool.not_eq_true] at h
      simp [h]

/-- A text without separators is one piece. -/
theorem fields_self (sep : Char → Bool) (s : Str) (h : ∀ c ∈ s, sep c = false) : fields sep s = [s] := by
  induction s with
  | nil => rfl
  | cons x s ih =>
    rw [fields, if_neg (by simp [h x]), ih (fun c hc => h c (List.mem_cons_of_mem _ hc))]
    rfl

theorem fields_mem (sep : Char → Bool) (s f : Str) (hf : f ∈ fields sep s) : ∀ c ∈ f, sep c = false := by
  induction s generalizing f with
  | nil =>
    simp only [fields, List.mem_singleton] at hf
    simp [hf]
  | cons x s ih =>
    rw [fields] at hf
    split at hf
    · rw [List.mem_cons] at hf
      rcases hf with rfl | hf
      · simp
      · exact ih f hf
    · rename_i hx
      rw [fields_eq] at hf ih
      simp only [List.headD_cons, List.tail_cons, List.mem_cons] at hf
      rcases hf with rfl | hf
      · intro c hc
        rcases List.mem_cons.1 hc with rfl | hc
        · simpa using hx
        · exact ih _ List.mem_cons_self c hc
      · exact ih f (List.mem_cons_of_mem _ hf)

theorem fields_infix (sep : Char → Bool) (s f : Str) (hf : f ∈ fields sep s) : f <:+: s := by
  suffices h : (∀ f ∈ (fields sep s).tail, f <:+: s) ∧ (fields sep s).headD [] <+: s by
    rw [fields_eq] at hf h
    rcases List.mem_cons.1 hf with rfl | hf
    · exact h.2.isInfix
    · exact h.1 f hf
  clear hf
  induction s with
  | nil => simp [fields]
  | cons x s ih =>
    rw [fields]
    split
    · refine ⟨fun f hf => ?_, by simp⟩
      rw [List.tail_cons, fields_eq] at hf
      rw [fields_eq] at ih
      rcases List.mem_cons.1 hf with rfl | hf
      · exact ih.2.isInfix.trans (List.suffix_cons x s).isInfix
      · exact (ih.1 f hf).trans (List.suffix_cons x s).isInfix
    · refine ⟨fun f hf => (ih.1 f hf).trans (List.suffix_cons x s).isInfix, ?_⟩
      rw [List.headD_cons]
      exact List.cons_prefix_cons.2 ⟨rfl, ih.2⟩

/-- Removing the comments from the text removes the comment from each of the pieces. -/
theorem fields_strip (sep comment : Char → Bool) (b : Bool) (s : Str) :
    fields sep (stripComments sep comment b s)
      = (if b then [] else ((fields sep s).headD []).takeWhile fun x => !comment x)
        :: (fields sep s).tail.map fun f => f.takeWhile fun x => !comment x := by
  induction s generalizing b with
  | nil => cases b <;> simp [stripComments, fields]
  | cons x s ih =>
    by_cases hx : sep x = true
    · have h1 : stripComments sep comment b (x :: s) = x :: stripComments sep comment false s := by
        cases b <;> simp [stripComments, hx]
      rw [h1, fields, if_pos hx, ih false, fields, if_pos hx]
      have := fields_eq sep s
      rw [this]
      simp
    · cases b with
      | true =>
        have h1 : stripComments sep comment true (x :: s) = stripComments sep comment true s := by
          simp [stripComments, hx]
        rw [h1, ih true, fields, if_neg hx]
        simp
      | false =>
        by_cases hc : comment x = true
        · have h1 : stripComments sep comment false (x :: s) = stripComments sep comment true s := by
            simp [stripComments, hx, hc]
          rw [h1, ih true, fields, if_neg hx]
          simp [hc]
        · have h1 : stripComments sep comment false (x :: s) = x :: stripComments sep comment false s := by
            simp [stripComments, hx, hc]
          rw [h1, fields, if_neg hx, ih false, fields, if_neg hx]
          simp [hc]

/-- A text without separators up to its end, when nothing stops a comment. -/
theorem strip_none (comment : Char → Bool) (s : Str) :
    stripComments (fun _ => false) comment false s = s.takeWhile fun x => !comment x := by
  have ht : ∀ s, stripComments (fun _ => false) comment true s = [] := by
    intro s
    induction s with
    | nil => rfl
    | cons x s ih => simpa [stripComments] using ih
  induction s with
  | nil => rfl
  | cons x s ih =>
    by_cases hc : comment x = true
    · simp [stripComments, hc, ht]
    · simp [stripComments, hc, ih]

/-- A text without comments is not changed. -/
theorem strip_self (stop comment : Char → Bool) (s : Str) (h : ∀ x ∈ s, comment x = false) :
    stripComments stop comment false s = s := by
  induction s with
  | nil => rfl
  | cons x s ih =>
    rw [stripComments, ih fun y hy => h y (List.mem_cons_of_mem _ hy), h x List.mem_cons_self]
    simp

namespace Parser

/-- Whether a character is a separator. -/
def isSep (c : Config) (x : Char) : Bool := (separators c).contains x

/-- Whether a character starts a comment. -/
def isComment (c : Config) (x : Char) : Bool := (commentChars c).contains x

/-- The entries which the loop hands over to `parse_cidr()`. -/
def entriesOf (c : Config) : (fuel : Nat) → Str → List Str
  | 0, _ => []
  | fuel + 1, rest =>
    if rest = [] then []
    else
      let entry := rest.takeWhile fun x => !isSep c x
      let after := rest.dropWhile fun x => !isSep c x
      if entry ≠ [] then
        (if entryText c entry ≠ [] then [entryText c entry] else []) ++ entriesOf c fuel ((skipLine c after).drop 1)
      else entriesOf c fuel (after.drop 1)

/-- Parse entries one after the other. -/
def seqEntries (env : ParseEnv) : List Str → PM (List Range)
  | [] => Pure.pure []
  | e :: es => parseCidr env e [] >>= fun l => prepend l (seqEntries env es)

theorem logging_seqEntries (env : ParseEnv) (c : Config) (es : List Str) : Logging c (seqEntries env es) := by
  induction es with
  | nil => exact logging_pure _ _
  | cons e es ih =>
    exact logging_bind (logging_parseCidr _ _ _ _) fun _ => logging_bind ih fun _ => logging_pure _ _

theorem parseList_eq (env : ParseEnv) (fuel : Nat) (rest : Str) (result : List Range) (p : Parser) :
    parseList env fuel rest result p = prepend result (seqEntries env (entriesOf p.config fuel rest)) p := by
  induction fuel generalizing rest result p with
  | zero =>
    rw [parseList, entriesOf, seqEntries, prepend_pure, List.append_nil]
  | succ n ih =>
    rw [parseList, PM.config_bind, entriesOf]
    by_cases h0 : rest = []
    · rw [if_pos h0, if_pos h0, seqEntries, prepend_pure, List.append_nil]
    · rw [if_neg h0, if_neg h0]
      dsimp only
      have hsep : ∀ x, List.contains (separators p.config) x = isSep p.config x := fun _ => rfl
      simp only [hsep]
      by_cases h1 : (rest.takeWhile fun x => !isSep p.config x) = []
      · rw [if_neg (by simpa using h1), if_neg (by simpa using h1), ih]
      · rw [if_pos (by simpa using h1), if_pos (by simpa using h1)]
        by_cases h2 : entryText p.config (rest.takeWhile fun x => !isSep p.config x) = []
        · rw [if_neg (by simpa using h2), parseEntry, if_neg (by simpa using h2), List.nil_append]
          rw [PM.pure_bind, ih]
        · rw [if_pos (by simpa using h2), parseEntry, if_pos (by simpa using h2), append_parseCidr]
          rw [List.singleton_append, seqEntries, prepend_bind, prepend, PM.bind_assoc]
          obtain ⟨errs, r, hl⟩ := logging_parseCidr env p.config
            (entryText p.config (rest.takeWhile fun x => !isSep p.config x)) []
          have hl := hl p rfl
          cases r with
          | ok l =>
            rw [PM.bind_of_ok hl, PM.bind_of_ok hl, PM.pure_bind, ih, prepend_prepend]
            rfl
          | throw e => rw [PM.bind_of_throw hl, PM.bind_of_throw hl]
          | ub w => rw [PM.bind_of_ub hl, PM.bind_of_ub hl]

/-- The end of the entry is never moved to the end of the line. -/
def NoSkip (c : Config) : Prop :=
  commentChars c = [] ∨ c.flags .multiAddressesNewlines = false
    ∨ (c.flags .multiAddressesCommas = false ∧ c.flags .multiAddressesSpaces = false)

theorem head_dropWhile_sep (c : Config) (s : Str) (x : Char) (h : (s.dropWhile fun x => !isSep c x).head? = some x) :
    isSep c x = true := by
  cases hd : s.dropWhile (fun x => !isSep c x) with
  | nil => rw [hd] at h; cases h
  | cons y l =>
    rw [hd] at h
    cases h
    have := List.head_dropWhile_not (fun x => !isSep c x) (l := s) (w := by simp [hd])
    simpa [hd] using this

theorem skipLine_self (c : Config) (h : NoSkip c) (s : Str) :
    skipLine c (s.dropWhile fun x => !isSep c x) = s.dropWhile fun x => !isSep c x := by
  rw [skipLine]
  split
  · rename_i hs
    obtain ⟨h1, h2, h3, h4⟩ := hs
    rcases h with h | h | ⟨ha, hb⟩
    · exact absurd h h1
    · rw [h] at h2
      cases h2
    · exfalso
      apply h4
      cases hd : (s.dropWhile fun x => !isSep c x).head? with
      | none => simp at hd; exact absurd (by simpa using hd) h3
      | some x =>
        have := head_dropWhile_sep c s x hd
        simp [isSep, separators, ha, hb, h2] at this
        rw [this]
  · rfl

theorem entriesOf_eq (c : Config) (h : NoSkip c) (fuel : Nat) (s : Str) (hf : s.length ≤ fuel) :
    entriesOf c fuel s = ((fields (isSep c) s).map (entryText c)).filter (· ≠ []) := by
  have h0 : entryText c [] = [] := by simp [entryText]
  induction fuel generalizing s with
  | zero =>
    have : s = [] := List.length_eq_zero_iff.1 (by omega)
    subst this
    simp [entriesOf, fields, h0]
  | succ n ih =>
    rw [entriesOf]
    by_cases hs : s = []
    · subst hs
      simp [fields, h0]
    · rw [if_neg hs]
      dsimp only
      rw [skipLine_self c h]
      have hrec : entriesOf c n ((s.dropWhile fun x => !isSep c x).drop 1)
          = (((match s.dropWhile (fun x => !isSep c x) with | [] => [] | _ :: t => fields (isSep c) t)).map
              (entryText c)).filter (· ≠ []) := by
        cases hd : s.dropWhile (fun x => !isSep c x) with
        | nil =>
          rw [ih _ (by simp)]
          simp [fields, h0]
        | cons y t =>
          rw [ih _ ?_]
          · rfl
          · have := (List.dropWhile_suffix (fun x => !isSep c x) (l := s)).length_le
            rw [hd] at this
            simp at this ⊢
            omega
      rw [fields_eq, List.map_cons, List.filter_cons]
      split
      · rename_i h1
        rw [hrec]
        by_cases h2 : entryText c (s.takeWhile fun x => !isSep c x) = []
        · simp [h2]
        · simp [h2]
      · rename_i h1
        have h1 : (s.takeWhile fun x => !isSep c x) = [] := by simpa using h1
        rw [hrec, h1, h0]
        simp

/-- The same with the comments removed first. -/
theorem entriesOf_strip (c : Config) (h : NoSkip c) (s : Str) :
    entriesOf c s.length s
      = entriesOf c (stripComments (isSep c) (isComment c) false s).length (stripComments (isSep c) (isComment c) false s) := by
  have ht : ∀ e, entryText c e = e.takeWhile fun x => !isComment c x := by
    intro e
    rw [entryText]
    split
    · rfl
    · rename_i h
      have h : commentChars c = [] := by simpa using h
      exact (takeWhile_self fun x _ => by simp [isComment, h]).symm
  have ht2 : ∀ e, entryText c (e.takeWhile fun x => !isComment c x) = entryText c e := by
    intro e
    rw [ht, ht, takeWhile_idem]
  rw [entriesOf_eq c h _ _ (Nat.le_refl _), entriesOf_eq c h _ _ (Nat.le_refl _), fields_strip]
  congr 1
  have := fields_eq (isSep c) s
  rw [this]
  simp only [List.map_cons, List.headD_cons, List.tail_cons, List.map_map, if_neg Bool.false_ne_true, ht2]
  congr 1
  apply List.map_congr_left
  intro e _
  exact (ht2 e).symm

/-- What the entries are made of. -/
theorem entriesOf_mem (c : Config) (fuel : Nat) (s e : Str) (he : e ∈ entriesOf c fuel s) :
    e ≠ [] ∧ (∀ x ∈ e, isSep c x = false) ∧ entryText c e = e ∧ e <:+: s := by
  induction fuel generalizing s with
  | zero => simp [entriesOf] at he
  | succ n ih =>
    rw [entriesOf] at he
    have hrec : ∀ t, t <:+ s.dropWhile (fun x => !isSep c x) → e ∈ entriesOf c n (t.drop 1) →
        e ≠ [] ∧ (∀ x ∈ e, isSep c x = false) ∧ entryText c e = e ∧ e <:+: s := by
      intro t ht hm
      obtain ⟨h1, h2, h3, h4⟩ := ih _ hm
      exact ⟨h1, h2, h3, h4.trans (((List.drop_suffix 1 t).trans ht).trans (List.dropWhile_suffix _)).isInfix⟩
    split at he
    · simp at he
    · dsimp only at he
      split at he
      · rw [List.mem_append] at he
        rcases he with he | he
        · split at he
          · rename_i hne
            rw [List.mem_singleton] at he
            have hpre : e <+: s.takeWhile fun x => !isSep c x := by
              rw [he, entryText]
              split
              · exact List.takeWhile_prefix _
              · exact List.prefix_refl _
            refine ⟨by rw [he]; exact hne, ?_, ?_, ?_⟩
            · intro x hx
              have := List.all_eq_true.1 List.all_takeWhile x (hpre.subset hx)
              simpa using this
            · rw [he]
              unfold entryText
              split
              · exact takeWhile_idem _ _
              · rfl
            · exact (hpre.trans (List.takeWhile_prefix _)).isInfix
          · simp at he
        · refine hrec _ ?_ he
          rw [skipLine]
          split
          · exact List.dropWhile_suffix _
          · exact List.suffix_refl _
      · exact hrec _ (List.suffix_refl _) he

/-- One entry alone. -/
theorem entriesOf_one (c : Config) (e : Str) (h0 : e ≠ []) (h1 : ∀ x ∈ e, isSep c x = false) (h2 : entryText c e = e) :
    entriesOf c e.length e = [e] := by
  cases he : e with
  | nil => exact absurd he h0
  | cons y t =>
    rw [← he]
    have hl : e.length = t.length + 1 := by rw [he]; rfl
    rw [hl, entriesOf, if_neg h0]
    have ht : (e.takeWhile fun x => !isSep c x) = e := takeWhile_self fun x hx => by simp [h1 x hx]
    have hd : (e.dropWhile fun x => !isSep c x) = [] := by
      have h := List.takeWhile_append_dropWhile (p := fun x => !isSep c x) (l := e)
      rw [ht] at h
      simpa using h
    dsimp only
    rw [ht, hd, if_pos h0, h2, if_pos h0]
    have hs : skipLine c [] = [] := by simp [skipLine]
    rw [hs]
    have : ∀ n, entriesOf c n (List.drop 1 []) = [] := by
      intro n
      cases n <;> simp [entriesOf]
    rw [this]
    rfl

/-- The entries when the end of an entry is moved to the end of the line: the first non-empty piece of each line. -/
def firstPiece (c : Config) (line : Str) : Str :=
  ((fields (isSep c) line).find? (· ≠ [])).getD []

theorem firstPiece_nil (c : Config) : firstPiece c [] = [] := by simp [firstPiece, fields]

theorem entriesOf_lines (c : Config) (hc : commentChars c ≠ []) (hn : c.flags .multiAddressesNewlines = true)
    (fuel : Nat) (s : Str) (hf : s.length ≤ fuel) :
    entriesOf c fuel s = ((fields (· == '\n') s).map fun l => entryText c (firstPiece c l)).filter (· ≠ []) := by
  have h0 : entryText c [] = [] := by simp [entryText]
  have hnl : isSep c '\n' = true := by simp [isSep, separators, hn]
  induction fuel generalizing s with
  | zero =>
    have : s = [] := List.length_eq_zero_iff.1 (by omega)
    subst this
    simp [entriesOf, fields, h0, firstPiece_nil]
  | succ n ih =>
    rw [entriesOf]
    by_cases hs : s = []
    · subst hs
      simp [fields, h0, firstPiece_nil]
    · rw [if_neg hs]
      dsimp only
      split
      · rename_i h1
        -- the line
        have hsplit := List.takeWhile_append_dropWhile (p := fun x => !isSep c x) (l := s)
        have hnone : ∀ x ∈ s.takeWhile (fun x => !isSep c x), (!(x == '\n')) = true := by
          intro x hx
          have := List.all_eq_true.1 List.all_takeWhile x hx
          cases hxe : x == '\n' with
          | false => rfl
          | true =>
            rw [beq_iff_eq.1 hxe, hnl] at this
            cases this
        have hfirst : firstPiece c (s.takeWhile fun x => !(x == '\n')) = s.takeWhile fun x => !isSep c x := by
          have ht : ((s.takeWhile fun x => !(x == '\n')).takeWhile fun x => !isSep c x) = s.takeWhile fun x => !isSep c x := by
            conv => lhs; rw [← hsplit]
            rw [List.takeWhile_append_of_pos hnone]
            have hself : ∀ x ∈ s.takeWhile (fun x => !isSep c x), (!isSep c x) = true :=
              fun x hx => List.all_eq_true.1 List.all_takeWhile x hx
            rw [List.takeWhile_append_of_pos hself]
            have : (((s.dropWhile fun x => !isSep c x).takeWhile fun x => !(x == '\n')).takeWhile fun x => !isSep c x) = [] := by
              cases hd : s.dropWhile (fun x => !isSep c x) with
              | nil => rfl
              | cons y t =>
                have hy := head_dropWhile_sep c s y (by rw [hd]; rfl)
                rw [List.takeWhile_cons]
                split
                · rw [List.takeWhile_cons, if_neg (by simp [hy])]
                · rfl
            rw [this, List.append_nil]
          rw [firstPiece, fields_eq, ht, List.find?_cons_of_pos (by simpa using h1)]
          rfl
        have hskip : skipLine c (s.dropWhile fun x => !isSep c x) = s.dropWhile fun x => !(x == '\n') := by
          have hd : (s.dropWhile fun x => !(x == '\n'))
              = (s.dropWhile fun x => !isSep c x).dropWhile fun x => !(x == '\n') := by
            conv => lhs; rw [← hsplit]
            rw [List.dropWhile_append_of_pos hnone]
          rw [hd, skipLine]
          split
          · congr 1
            funext x
            by_cases hx : x = '\n' <;> simp [hx]
          · rename_i hne
            cases ha : s.dropWhile (fun x => !isSep c x) with
            | nil => rfl
            | cons y t =>
              have : y = '\n' := by
                refine Decidable.byContradiction fun hy => ?_
                exact hne ⟨hc, hn, by simp [ha], by simp [ha, hy]⟩
              subst this
              simp
        rw [hskip]
        rw [fields_eq (· == '\n') s, List.map_cons, hfirst, List.filter_cons]
        have hrec : entriesOf c n ((s.dropWhile fun x => !(x == '\n')).drop 1)
            = (((match s.dropWhile (fun x => !(x == '\n')) with | [] => [] | _ :: t => fields (· == '\n') t)).map
                fun l => entryText c (firstPiece c l)).filter (· ≠ []) := by
          cases hd : s.dropWhile (fun x => !(x == '\n')) with
          | nil =>
            rw [ih _ (by simp)]
            simp [fields, h0, firstPiece_nil]
          | cons y t =>
            rw [ih _ ?_]
            · rfl
            · have := (List.dropWhile_suffix (fun x => !(x == '\n')) (l := s)).length_le
              rw [hd] at this
              simp at this ⊢
              omega
        rw [hrec]
        by_cases h2 : entryText c (s.takeWhile fun x => !isSep c x) = []
        · simp [h2]
        · simp [h2]
      · rename_i h1
        have h1 : (s.takeWhile fun x => !isSep c x) = [] := by simpa using h1
        cases hs' : s with
        | nil => exact absurd hs' hs
        | cons y t =>
          have hy : isSep c y = true := by
            rw [hs', List.takeWhile_cons] at h1
            cases hy : isSep c y with
            | true => rfl
            | false => simp [hy] at h1
          have hd : ((y :: t).dropWhile fun x => !isSep c x) = y :: t := by simp [hy]
          rw [hd, List.drop_one, List.tail_cons, ih t (by rw [hs'] at hf; simp at hf; omega)]
          rw [fields]
          by_cases hyn : y = '\n'
          · subst hyn
            simp [firstPiece_nil, h0]
          · rw [if_neg (by simpa using hyn)]
            have := fields_eq (· == '\n') t
            rw [this]
            simp only [List.headD_cons, List.tail_cons, List.map_cons, firstPiece]
            rw [fields, if_pos hy, List.find?_cons_of_neg (by simp)]

theorem rel_seqEntries {c c' : Config} (h : AgreeMask c c') (env : ParseEnv) (es : List Str) :
    Rel c c' (seqEntries env es) (seqEntries env es) := by
  induction es with
  | nil => exact rel_pure _ _ _
  | cons e es ih => exact rel_bind (rel_parseCidr h _ _ _) fun _ => rel_bind ih fun _ => rel_pure _ _ _

/-- What `parse()` does with a list. -/
theorem parse_list (env : ParseEnv) (inp : Str) (p : Parser) (hs : separators p.config ≠ []) :
    parse env inp p =
      (seqEntries env (entriesOf p.config inp.length inp) >>= fun l => PM.lift (sortResult p.config.sort l)) p := by
  have hu : parseUnsorted env inp p = seqEntries env (entriesOf p.config inp.length inp) p := by
    rw [parseUnsorted, PM.config_bind, if_neg hs, parseList_eq]
    exact congrFun (PM.bind_pure _) p
  rw [parse, PM.config_bind]
  simp only [PM.bind_def, hu]

/-- What `parse()` does with a single entry. -/
theorem parse_single (env : ParseEnv) (inp : Str) (p : Parser) (hs : separators p.config = []) :
    parse env inp p = (parseSingle env inp [] >>= fun l => PM.lift (sortResult p.config.sort l)) p := by
  have hu : parseUnsorted env inp p = parseSingle env inp [] p := by
    rw [parseUnsorted, PM.config_bind, if_pos hs]
  rw [parse, PM.config_bind]
  simp only [PM.bind_def, hu]

end Parser

end Verif
