import Verif.SpecRoute
import Mathlib.Data.List.Forall2

/-!
# Specification of a table of which the columns are found by their names

A table is a line of titles and lines of words. A word is followed by a blank; what follows the last blank of a line does not
count. The cell of a title is the word of the line which has the rank of the first occurrence of the title.
-/

namespace Verif.Spec

/-- A blank between two words. -/
def IsBlank (c : Char) : Prop := c = ' ' ∨ c = '\t'

/-- Characters of words. -/
def WordText (w : Str) : Prop := ∀ c ∈ w, ¬ IsBlank c ∧ c ≠ '\n'

/-- The text of a line with the given words. -/
inductive LineText : List Str → Str → Prop
  | last {lead lost : Str} : (∀ c ∈ lead, IsBlank c) → WordText lost → LineText [] (lead ++ lost)
  | word {lead w : Str} {b : Char} {ws : List Str} {s : Str} : (∀ c ∈ lead, IsBlank c) → w ≠ [] → WordText w → IsBlank b →
      LineText ws s → LineText (w :: ws) (lead ++ w ++ b :: s)

/-- The text of a table: each line ends with a new line, and what follows the last one does not count. -/
def TableText (titles : List Str) (rows : List (List Str)) (file : Str) : Prop :=
  ∃ (h : Str) (lines : List Str) (tail : Str), LineText titles h ∧ List.Forall₂ LineText rows lines ∧ '\n' ∉ tail
    ∧ file = h ++ '\n' :: (lines.flatMap fun s => s ++ ['\n']) ++ tail

/-- The word of a line in the column of a title. -/
def IsCell (titles row : List Str) (title v : Str) : Prop :=
  ∃ i : Nat, titles[i]? = some title ∧ (∀ j : Nat, j < i → titles[j]? ≠ some title) ∧ row[i]? = some v

/-- The columns of the numbers, with what the kernel prints in them. -/
def routeNumbers (k : KernelRoute) : List (Str × Str) :=
  [("Flags".toList, hex16 k.flags), ("RefCnt".toList, signedStr k.refcnt), ("Use".toList, dec k.use), ("Metric".toList, signedStr k.metric),
   ("MTU".toList, signedStr k.mtu), ("Window".toList, dec k.window), ("IRTT".toList, dec k.irtt)]

/-- All the columns but the one of the mask. -/
def routeCellsNoMask (k : KernelRoute) : List (Str × Str) :=
  ("Iface".toList, k.iface) :: ("Destination".toList, hexLittle k.destination) :: ("Gateway".toList, hexLittle k.gateway) :: routeNumbers k

/-- All the columns. -/
def routeCells (k : KernelRoute) : List (Str × Str) := ("Mask".toList, hexLittle k.mask) :: routeCellsNoMask k

/-- The titles of all the columns. -/
def routeColumnTitles : List Str :=
  ["Iface".toList, "Destination".toList, "Gateway".toList, "Flags".toList, "RefCnt".toList, "Use".toList, "Metric".toList,
   "Mask".toList, "MTU".toList, "Window".toList, "IRTT".toList]

end Verif.Spec
