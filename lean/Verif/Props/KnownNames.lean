import Verif.Lemmas.ParserKnown
import Verif.Props.Asked

/-!
# C155: what is read without an error does not depend on the names which are not known
-/

namespace Verif

open Spec

/-- C155: a text which is read without an error is read in the same way when the name service knows more names, whatever is
allowed, by default and in whatever order. Of the names which were known, only those in the text and the defaults matter. -/
theorem C155_more_names (env1 env2 : ParseEnv) (p : Parser) (inp : Str) (h : KnownBy env1 env2 (MayAsk p.config inp))
    (hok : (Parser.parse env1 inp p).1.getErrorCount = p.getErrorCount) : Parser.parse env2 inp p = Parser.parse env1 inp p :=
  ((Parser.known_parse h).2 p rfl hok).symm

/-- C155: in a list, only the names in the items matter, not those in the comments. -/
theorem C155_list (env1 env2 : ParseEnv) (p : Parser) (inp : Str) (hl : ListMode p)
    (h : ∀ e ∈ pieces p inp, KnownBy env1 env2 (MayAsk p.config e))
    (hok : (Parser.parse env1 inp p).1.getErrorCount = p.getErrorCount) : Parser.parse env2 inp p = Parser.parse env1 inp p := by
  refine ((Parser.known_list ((listMode_iff p).2 hl) fun e he => h e ?_).2 p rfl hok).symm
  rw [← pieces_eq]
  exact he

/-- C155: a value which is valid stays valid. -/
theorem C155_validator (env1 env2 : ParseEnv) (p : Parser) (value : Str) (h : KnownBy env1 env2 (MayAsk p.config value))
    (hok : (Validator.validate env1 value p).2 = .ok (true, none)) :
    Validator.validate env2 value p = Validator.validate env1 value p := by
  have hk := C155_more_names env1 env2 { p with error := [], errorCount := 0 } value h
  rw [validate_eq] at hok
  rw [validate_eq, validate_eq, hk]
  obtain ⟨errs, r, hl⟩ := Parser.logging_parse env1 p.config value
  have hl := hl { p with error := [], errorCount := 0 } rfl
  rw [hl] at hok ⊢
  cases r with
  | throw e => cases hok
  | ub w => cases hok
  | ok l =>
    dsimp only at hok ⊢
    split at hok
    · cases hok
    · rename_i hn
      cases errs with
      | nil => rfl
      | cons e es => exact absurd (by simp [Parser.hasErrors, Parser.emitAll]) hn

/-- C155: what a name service which knows fewer names refuses, where one which knows more accepts it, is refused with a message:
a result is never silently different. -/
theorem C155_differs (env1 env2 : ParseEnv) (p : Parser) (inp : Str) (h : KnownBy env1 env2 (MayAsk p.config inp))
    (hne : (Parser.parse env1 inp p).2 ≠ (Parser.parse env2 inp p).2) :
    p.getErrorCount < (Parser.parse env1 inp p).1.getErrorCount := by
  have hk := C155_more_names env1 env2 p inp h
  obtain ⟨errs, r, hl⟩ := Parser.logging_parse env1 p.config inp
  have hl := hl p rfl
  by_cases h0 : (Parser.parse env1 inp p).1.getErrorCount = p.getErrorCount
  · rw [hk h0] at hne
    exact absurd rfl hne
  · rw [hl] at h0 ⊢
    simp only [Parser.getErrorCount, Parser.emitAll] at h0 ⊢
    omega

/-! ### Examples -/

theorem doorsEnv_knows (Q : Str → Str → Bool → Int → Prop) : KnownBy hostsEnv doorsEnv Q := by
  refine ⟨rfl, fun node service numeric protocol _ l hl => ?_⟩
  have hg : node = "gate".toList := by
    by_cases hg : node = "gate".toList
    · exact hg
    · have : hostsEnv.getaddrinfo node service numeric protocol = .error (-2) 0 := if_neg hg
      rw [this] at hl
      cases hl
  have : node ≠ "doors".toList := by rw [hg]; decide
  exact (if_neg this).trans hl

-- C155_list: a file with a comment.
example : Parser.parse doorsEnv "gate:80# doors\n".toList hostFileParser = Parser.parse hostsEnv "gate:80# doors\n".toList hostFileParser :=
  C155_list _ _ _ _ (by unfold ListMode; decide) (fun _ _ => doorsEnv_knows _) (by decide +kernel)

-- C155_more_names: a name which is known.
example : (Parser.parse hostsEnv "gate:80".toList Parser.create).1.getErrorCount = 0
    ∧ Parser.parse doorsEnv "gate:80".toList Parser.create = Parser.parse hostsEnv "gate:80".toList Parser.create := by
  have h : (Parser.parse hostsEnv "gate:80".toList Parser.create).1.getErrorCount = 0 := by decide +kernel
  exact ⟨h, C155_more_names _ _ _ _ (doorsEnv_knows _) h⟩

-- C155_differs: a name which is not known by the first, with its message.
example : 0 < (Parser.parse hostsEnv "doors:80".toList Parser.create).1.getErrorCount :=
  C155_differs hostsEnv doorsEnv Parser.create "doors:80".toList (doorsEnv_knows _) (by decide +kernel)

-- C155_validator: a value which is valid for the two.
example : Validator.validate doorsEnv "gate:80".toList Parser.create = Validator.validate hostsEnv "gate:80".toList Parser.create :=
  C155_validator _ _ _ _ (doorsEnv_knows _) (by decide +kernel)

end Verif
