import Verif.Basic

/-!
# Specification: pieces of a text and comments
-/

namespace Verif

/-- The pieces of a text between separators (always at least one). -/
def fields (sep : Char → Bool) : Str → List Str
  | [] => [[]]
  | x :: s => if sep x then [] :: fields sep s else (x :: (fields sep s).headD []) :: (fields sep s).tail

/-- The text without its comments: a comment starts with one of the characters `comment` and goes on until one of the
characters `stop`, which is kept, or the end of the text. -/
def stripComments (stop comment : Char → Bool) : (within : Bool) → Str → Str
  | _, [] => []
  | true, x :: s => if stop x then x :: stripComments stop comment false s else stripComments stop comment true s
  | false, x :: s =>
    if stop x then x :: stripComments stop comment false s
    else if comment x then stripComments stop comment true s
    else x :: stripComments stop comment false s

end Verif
