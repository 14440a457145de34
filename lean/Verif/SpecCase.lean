import Verif.Model.Parser

/-!
# Specification: texts which differ in the case of letters
-/

namespace Verif.Spec

/-- The text in lower case. -/
def lower (s : Str) : Str := s.map Char.toLower

/-- The texts are the same but for the case of letters. -/
def SameLetters (s t : Str) : Prop := lower s = lower t

/-- The functions of the system which the parser calls do not look at the case of letters. -/
structure CaseBlind (env : ParseEnv) : Prop where
  numbers : ∀ s t, SameLetters s t → env.convert s = env.convert t
  names : ∀ (h h' s s' : Str) (numeric : Bool) (protocol : Int), SameLetters h h' → SameLetters s s' →
    env.getaddrinfo h s numeric protocol = env.getaddrinfo h' s' numeric protocol

end Verif.Spec
