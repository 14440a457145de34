import Verif.Props.KnownNames
import Verif.Props.ValidatorLookupMask

/-!
# C156: white space around an address does not matter
-/

namespace Verif

open Spec

/-- White space only. -/
def BlankText (s : Str) : Prop := ∀ c ∈ s, c ∈ " \t\n\x0b\x0c\r".toList

/-- The same text, but for the white space around it. -/
def SameButBlanks (s t : Str) : Prop := ∃ u, Trims s u ∧ Trims t u

/-- One address only, and no comments. -/
def BareSingle (p : Parser) : Prop := ¬ ListMode p ∧ NoComments p

/-! ### Lemmas -/

theorem sameButBlanks_trim {s t : Str} (h : SameButBlanks s t) : Parser.trimString s = Parser.trimString t := by
  obtain ⟨u, h1, h2⟩ := h
  rw [trims_eq h1, trims_eq h2]

theorem sameButBlanks_around {x y : Str} (t : Str) (hx : BlankText x) (hy : BlankText y) : SameButBlanks (x ++ t ++ y) t := by
  obtain ⟨a, b, e, ha, hb, h1, h2⟩ := trims_trim t
  refine ⟨Parser.trimString t, ⟨x ++ a, b ++ y, ?_, ?_, ?_, h1, h2⟩, trims_trim t⟩
  · conv => lhs; rw [e]
    simp only [List.append_assoc]
  · intro c hc
    rcases List.mem_append.1 hc with hc | hc
    · exact hx c hc
    · exact ha c hc
  · intro c hc
    rcases List.mem_append.1 hc with hc | hc
    · exact hb c hc
    · exact hy c hc

theorem noComments_chars {p : Parser} (h : NoComments p) : Parser.commentChars p.config = [] := by
  rw [Parser.commentChars, h.1, h.2]
  rfl

theorem single_separators {p : Parser} (h : ¬ ListMode p) : Parser.separators p.config = [] :=
  Classical.not_not.1 fun h' => h ((listMode_iff p).1 h')

theorem seqEntries_blanks (env : ParseEnv) {l l' : List Str} (h : Each SameButBlanks l l') :
    Parser.seqEntries env l = Parser.seqEntries env l' := by
  induction h with
  | nil => rfl
  | cons h _ ih => rw [Parser.seqEntries, Parser.seqEntries, ih, Parser.parseCidr_trim env _ (sameButBlanks_trim h)]

theorem commentChars_introduces (p : Parser) (c : Char) : (Parser.commentChars p.config).contains c = introduces p c :=
  isComment_eq p c

theorem single_body (env : ParseEnv) (p : Parser) (x t y comment : Str) (hx : BlankText x) (hy : BlankText y)
    (h1 : ∃ c s, t = c :: s ∧ c ∉ " \t\n\x0b\x0c\r".toList) (h2 : ∀ c ∈ t, introduces p c = false)
    (h3 : ∀ c, comment.head? = some c → introduces p c = true) (hlen : (x ++ t ++ y ++ comment).length < 2 ^ 64) :
    Parser.parseSingle env (x ++ t ++ y ++ comment) [] p = Parser.parseCidr env t [] p := by
  obtain ⟨c, s, rfl, hc⟩ := h1
  have hblank : ∀ z, BlankText z → ∀ a ∈ z, Parser.isSpace a = true := fun z hz a ha => (isSpace_mem a).2 (hz a ha)
  have hcs : Parser.isSpace c = false := Bool.eq_false_iff.2 fun h => hc ((isSpace_mem c).1 h)
  have hdrop : (x ++ c :: s ++ y ++ comment).dropWhile Parser.isSpace = c :: s ++ y ++ comment := by
    rw [List.append_assoc, List.append_assoc, List.dropWhile_append_of_pos (hblank x hx), List.cons_append, List.dropWhile_cons,
      if_neg (by rw [hcs]; exact Bool.false_ne_true), List.append_assoc, List.cons_append]
  have hty : ∀ a ∈ c :: s ++ y, introduces p a = false := by
    intro a ha
    rcases List.mem_append.1 ha with ha | ha
    · exact h2 a ha
    · have : a ≠ '#' ∧ a ≠ ';' := by
        constructor <;> rintro rfl <;> exact absurd (hy _ ha) (by decide)
      simp [introduces, this.1, this.2]
  have hbody : Parser.singleBody p.config (x ++ c :: s ++ y ++ comment) = c :: s ++ y := by
    rw [Parser.singleBody, hdrop]
    have htake : (c :: s ++ y ++ comment).takeWhile (fun a => !(Parser.commentChars p.config).contains a) = c :: s ++ y := by
      rw [List.takeWhile_append_of_pos (fun a ha => by rw [commentChars_introduces, hty a ha]; rfl)]
      cases comment with
      | nil => rw [List.takeWhile_nil, List.append_nil]
      | cons z zs =>
        rw [List.takeWhile_cons, commentChars_introduces, h3 z rfl, if_neg (by decide), List.append_nil]
    split
    · exact htake
    · rename_i hn
      cases comment with
      | nil => rw [List.append_nil]
      | cons z zs =>
        have := commentChars_introduces p z
        rw [Classical.not_not.1 hn, h3 z rfl] at this
        cases this
  rw [Parser.parseSingle_eq env _ [] p (.inl hlen), hbody, if_pos (.inl (by simp))]
  exact congrFun (Parser.parseCidr_trim env [] (sameButBlanks_trim (sameButBlanks_around (x := []) (c :: s) (fun _ h => nomatch h) hy))) p

/-! ### C156 -/

/-- C156: white space before and after the text of one address does not matter, whatever else is allowed: the result and the
messages are the same. -/
theorem C156_text (env : ParseEnv) (p : Parser) (s t : Str) (hp : BareSingle p) (h : SameButBlanks s t) :
    Parser.parse env s p = Parser.parse env t p := by
  have hs := single_separators hp.1
  have hc := noComments_chars hp.2
  rw [Parser.parse_single env s p hs, Parser.parse_single env t p hs]
  simp only [PM.bind_def]
  rw [Parser.parseSingle_plain env s [] p hc, Parser.parseSingle_plain env t [] p hc, Parser.parseCidr_trim env _ (sameButBlanks_trim h)]

/-- C156: the same, with the white space spelled out. -/
theorem C156_around (env : ParseEnv) (p : Parser) (x t y : Str) (hp : BareSingle p) (hx : BlankText x) (hy : BlankText y) :
    Parser.parse env (x ++ t ++ y) p = Parser.parse env t p := C156_text env p _ _ hp (sameButBlanks_around t hx hy)

/-- C156: in a list, white space around the items does not matter (a blank which is a separator is not part of an item). -/
theorem C156_list (env : ParseEnv) (p : Parser) (s t : Str) (hp : ListMode p) (h : Each SameButBlanks (pieces p s) (pieces p t)) :
    Parser.parse env s p = Parser.parse env t p := by
  have hs := (listMode_iff p).2 hp
  have hu : ∀ inp, Parser.parseUnsorted env inp p = Parser.prepend [] (Parser.seqEntries env (pieces p inp)) p := by
    intro inp
    rw [Parser.parseUnsorted, PM.config_bind, if_neg hs, Parser.parseList_eq, pieces_eq]
  rw [Parser.parse, Parser.parse, PM.config_bind, PM.config_bind]
  simp only [PM.bind_def, hu, seqEntries_blanks env h]

/-- C156: with comments allowed, one address may have white space around it and a comment after it. -/
theorem C156_comment (env : ParseEnv) (p : Parser) (x t y comment : Str) (hl : ¬ ListMode p) (hx : BlankText x) (hy : BlankText y)
    (h1 : ∃ c s, t = c :: s ∧ c ∉ " \t\n\x0b\x0c\r".toList) (h2 : ∀ c ∈ t, introduces p c = false)
    (h3 : ∀ c, comment.head? = some c → introduces p c = true) (hlen : (x ++ t ++ y ++ comment).length < 2 ^ 64) :
    Parser.parse env (x ++ t ++ y ++ comment) p = Parser.parse env t p := by
  have hs := single_separators hl
  have ht := single_body env p [] t [] [] (fun _ h => nomatch h) (fun _ h => nomatch h) h1 h2 (fun _ h => nomatch h) (by
    simp only [List.length_append, List.nil_append, List.append_nil] at hlen ⊢
    omega)
  rw [List.nil_append, List.append_nil, List.append_nil] at ht
  rw [Parser.parse_single env _ p hs, Parser.parse_single env t p hs]
  simp only [PM.bind_def]
  rw [single_body env p x t y comment hx hy h1 h2 h3 hlen, ht]

/-- C156: the address validator. -/
theorem C156_validator (env : ParseEnv) (p : Parser) (s t : Str) (hp : BareSingle p) (h : SameButBlanks s t) :
    Validator.validate env s p = Validator.validate env t p := by
  rw [validate_eq, validate_eq, C156_text env { p with error := [], errorCount := 0 } s t hp h]

/-- C156: `string_to_addr()`. -/
theorem C156_string_to_addr (env : ParseEnv) (s t d : Str) (port : Int) (proto : Str) (mask : Bool) (h : SameButBlanks s t) :
    Parser.stringToAddr env s d port proto mask = Parser.stringToAddr env t d port proto mask := by
  rcases stringToAddr_cases (env := env) (d := d) (port := port) (proto := proto) (mask := mask) s with ⟨h1, e1⟩ | ⟨h1, e1, o1⟩ <;>
    rcases stringToAddr_cases (env := env) (d := d) (port := port) (proto := proto) (mask := mask) t with ⟨h2, e2⟩ | ⟨h2, e2, o2⟩
  · rw [e1, e2]
  · exact absurd h2 h1
  · exact absurd h1 h2
  · rw [e1, e2, PM.bind_def, PM.bind_def, C156_text env _ s t ⟨?_, ?_⟩ h]
    · unfold ListMode
      rw [o1.flags]
      simp
    · unfold NoComments
      rw [o1.flags]
      simp

/-! ### Examples -/

example : Parser.parse hostsEnv "\t gate:80\r\n".toList Parser.create = Parser.parse hostsEnv "gate:80".toList Parser.create :=
  C156_around hostsEnv Parser.create "\t ".toList "gate:80".toList "\r\n".toList ⟨by unfold ListMode; decide, by unfold NoComments; decide⟩
    (by unfold BlankText; decide) (by unfold BlankText; decide)

-- C156_list: a list with commas.
example : Parser.parse hostsEnv " gate:80 ,\tgate\n".toList hostListParser = Parser.parse hostsEnv "gate:80,gate".toList hostListParser := by
  have e1 : pieces hostListParser " gate:80 ,\tgate\n".toList = [" gate:80 ".toList, "\tgate\n".toList] := by decide +kernel
  have e2 : pieces hostListParser "gate:80,gate".toList = ["gate:80".toList, "gate".toList] := by decide +kernel
  refine C156_list _ _ _ _ (by unfold ListMode; decide) ?_
  rw [e1, e2]
  exact .cons (sameButBlanks_around (x := " ".toList) (y := " ".toList) "gate:80".toList (by unfold BlankText; decide) (by unfold BlankText; decide))
    (.cons (sameButBlanks_around (x := "\t".toList) (y := "\n".toList) "gate".toList (by unfold BlankText; decide) (by unfold BlankText; decide)) .nil)

-- C156_comment: a comment after the address.
example : Parser.parse hostsEnv " gate:80 # doors".toList (ParserOp.runAll [(sampleEnv, .setAllow 11 true)] Parser.create)
    = Parser.parse hostsEnv "gate:80".toList (ParserOp.runAll [(sampleEnv, .setAllow 11 true)] Parser.create) :=
  C156_comment hostsEnv _ " ".toList "gate:80".toList " ".toList "# doors".toList (by unfold ListMode; decide)
    (by unfold BlankText; decide) (by unfold BlankText; decide) ⟨'g', "ate:80".toList, rfl, by decide⟩ (by decide) (by decide) (by decide)

-- White space inside is not ignored.
example : (Parser.parse hostsEnv "gate :80".toList Parser.create).2 ≠ (Parser.parse hostsEnv "gate:80".toList Parser.create).2 := by
  decide +kernel

end Verif
