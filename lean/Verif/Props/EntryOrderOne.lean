import Verif.Props.EntryOrder
import Verif.Lemmas.ParserOne

/-! C114: the order of the entries of a list which is merged, for parsers without address ranges. -/

namespace Verif

open Spec

/-- C114: with `SORT_MERGE` and without address ranges, the order of the entries has no effect on the merged list and what it matches. -/
theorem C114_merged_addresses (env : ParseEnv) (p : Parser) (inp inp' : Str) (hl : ListMode p) (hm : p.config.sort &&& SORT_MERGE ≠ 0)
    (hr : p.config.flags .addressRange = false) (he : (pieces p inp).Perm (pieces p inp')) (m : List Range)
    (h : (Parser.parse env inp p).2 = .ok m) :
    ∃ m', (Parser.parse env inp' p).2 = .ok m' ∧ intervals m' = intervals m ∧ ∀ a : Addr, addressMatchRanges m' a = addressMatchRanges m a := by
  obtain ⟨l, h0⟩ := unsorted_read h
  rcases C114_merged_partial env p inp inp' hl hm he l h0 (one_read hr h0) with ⟨h1, _⟩ | ⟨m1, m', h1, h2, h3, h4⟩
  · rw [h] at h1
    cases h1
  · rw [h] at h1
    cases h1
    exact ⟨m', h2, h3, h4⟩

/-- C114: nor on whether the call throws because of the merge. -/
theorem C114_merged_throws (env : ParseEnv) (p : Parser) (inp inp' : Str) (hl : ListMode p) (hm : p.config.sort &&& SORT_MERGE ≠ 0)
    (hr : p.config.flags .addressRange = false) (he : (pieces p inp).Perm (pieces p inp')) (l : List Range)
    (h0 : (Parser.parse env inp (unsortedOf p)).2 = .ok l) :
    (Parser.parse env inp p).2 = .throw .outOfRange ↔ (Parser.parse env inp' p).2 = .throw .outOfRange := by
  rcases C114_merged_partial env p inp inp' hl hm he l h0 (one_read hr h0) with ⟨h1, h2⟩ | ⟨m1, m', h1, h2, _⟩
  · exact iff_of_true h1 h2
  · rw [h1, h2]
    exact iff_of_false (fun h => nomatch h) (fun h => nomatch h)

/-! ### Examples -/

/-- C114_merged_addresses on a network and an address. -/
example : ∃ m', (Parser.parse sampleEnv "10.0.0.2,10.0.0.1/24".toList mergeParser).2 = .ok m' ∧ (intervals m').length = 1 := by
  have hp : (pieces mergeParser "10.0.0.1/24,10.0.0.2".toList).Perm (pieces mergeParser "10.0.0.2,10.0.0.1/24".toList) := by
    rw [show pieces mergeParser "10.0.0.1/24,10.0.0.2".toList = ["10.0.0.1/24".toList, "10.0.0.2".toList] by decide +kernel,
      show pieces mergeParser "10.0.0.2,10.0.0.1/24".toList = ["10.0.0.2".toList, "10.0.0.1/24".toList] by decide +kernel]
    decide
  obtain ⟨m, h1, h2⟩ : ∃ m, (Parser.parse sampleEnv "10.0.0.1/24,10.0.0.2".toList mergeParser).2 = .ok m ∧ (intervals m).length = 1 := by
    have h3 : ranges (Parser.parse sampleEnv "10.0.0.1/24,10.0.0.2".toList mergeParser).2 = 1 := by decide +kernel
    obtain ⟨m, h1, h2, h3⟩ := ranges_elim (n := 0) h3
    refine ⟨m, h1, ?_⟩
    rw [intervals, List.length_map, List.filter_eq_self.2 (fun r hr => by simpa using h3 r hr), h2]
  obtain ⟨m', g1, g2, _⟩ := C114_merged_addresses sampleEnv mergeParser _ _ mergeParser_reads.list (by decide) (by decide) hp m h1
  exact ⟨m', g1, by rw [g2, h2]⟩

/-- C114_merged_throws on the same texts. -/
example : (Parser.parse sampleEnv "10.0.0.2,10.0.0.1/24".toList mergeParser).2 ≠ .throw .outOfRange := by
  have hp : (pieces mergeParser "10.0.0.1/24,10.0.0.2".toList).Perm (pieces mergeParser "10.0.0.2,10.0.0.1/24".toList) := by
    rw [show pieces mergeParser "10.0.0.1/24,10.0.0.2".toList = ["10.0.0.1/24".toList, "10.0.0.2".toList] by decide +kernel,
      show pieces mergeParser "10.0.0.2,10.0.0.1/24".toList = ["10.0.0.2".toList, "10.0.0.1/24".toList] by decide +kernel]
    decide
  obtain ⟨l, h1, _⟩ := rangesFrom_elim (n := 1)
    (by decide +kernel : rangesFrom (Parser.parse sampleEnv "10.0.0.1/24,10.0.0.2".toList (unsortedOf mergeParser)).2 = 2)
  exact fun h => absurd ((C114_merged_throws sampleEnv mergeParser _ _ mergeParser_reads.list (by decide) (by decide) hp l h1).2 h) (by decide +kernel)

end Verif
