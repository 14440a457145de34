import Verif.Lemmas.ParserPlain
import Verif.Props.ParserSort

/-!
# Lemmas about the parser: without address ranges, each range is one address
-/

namespace Verif

open Spec

namespace Parser

/-- A range of one address. -/
def One (r : Range) : Prop := r.hasFrom = true ∧ r.hasTo = false

section
variable {c : Config} {env : ParseEnv}

theorem one_maskLoop (mask : Str) (v4 : Bool) (l : List Range) (hl : All One l) : Post c (maskLoop env mask v4 l) (All One) := by
  induction l with
  | nil => exact post_pure c (all_nil _)
  | cons x l ih =>
    rw [maskLoop]
    refine post_config (post_bind (post_parseMask env _ _ _) fun a _ => ?_)
    refine post_bind (ih fun r hr => hl r (List.mem_cons_of_mem _ hr)) fun l' hl' => post_pure c ?_
    refine fun r hr => ?_
    rcases List.mem_cons.1 hr with hr | hr
    · rw [hr]
      exact hl x (List.mem_cons_self ..)
    · exact hl' r hr

variable (hrange : c.flags .addressRange = false)

include hrange

theorem one_parseAddress (s mask : Str) : Post c (parseAddress env s mask []) (fun x => All One x.2) :=
  post_mono (plain_parseAddress hrange s mask) fun _ h r hr => ⟨(h r hr).1, (h r hr).2.1⟩

theorem one_parseCidr (s : Str) : Post c (parseCidr env s []) (All One) := by
  rw [parseCidr]
  refine post_config ?_
  dsimp only
  split
  · refine post_errorCountNow fun n => ?_
    refine post_bind (one_parseAddress hrange _ _) fun x hx => ?_
    refine post_bind (one_maskLoop _ _ _ hx) fun l hl => ?_
    refine post_errorCountNow fun m => ?_
    split
    · exact post_pure c (all_append (all_nil _) hl)
    · exact post_pure c (all_nil _)
  · exact post_bind (one_parseAddress hrange _ _) fun x hx => post_pure c hx

theorem one_seqEntries (es : List Str) : Post c (seqEntries env es) (All One) := by
  induction es with
  | nil => exact post_pure c (all_nil _)
  | cons e es ih =>
    rw [seqEntries]
    refine post_bind (one_parseCidr hrange e) fun l hl => ?_
    exact post_bind ih fun l' hl' => post_pure c (all_append hl hl')

theorem one_parseUnsorted (inp : Str) : Post c (parseUnsorted env inp) (All One) := by
  rw [parseUnsorted]
  refine post_config ?_
  split
  · rw [parseSingle]
    refine post_config ?_
    dsimp only
    split
    · exact post_bind (R := fun _ => True) (post_lift c fun _ _ => trivial) fun e _ => one_parseCidr hrange _
    · exact one_parseCidr hrange _
  · intro p hp
    rw [parseList_eq, hp]
    exact post_bind (one_seqEntries hrange _) (fun l hl => post_pure c (all_append (all_nil _) hl)) p hp

end

end Parser

/-- Without address ranges, what is read is addresses, none of which is an empty range. -/
theorem one_read {env : ParseEnv} {inp : Str} {p : Parser} (hr : p.config.flags .addressRange = false) {l : List Range}
    (h : (Parser.parse env inp (unsortedOf p)).2 = .ok l) :
    ∀ r ∈ l, (r.hasFrom = true ∨ r.lo.getMaskSize = 128) ∧ first r ≤ last r := by
  have hu : (unsortedOf p).config.flags = p.config.flags := by rw [unsortedOf_config]
  have hs : (unsortedOf p).config.sort &&& 0x0F = 0 := by rw [unsortedOf_config]; exact unsortedOf_sort _
  have hpost := (Parser.one_parseUnsorted (c := (unsortedOf p).config) (env := env) (by rw [hu]; exact hr) inp (unsortedOf p) rfl).2
  have hone : ∀ r ∈ l, Parser.One r := by
    rw [parse_eq] at h
    rcases hq : Parser.parseUnsorted env inp (unsortedOf p) with ⟨q, x⟩
    cases x with
    | throw e => rw [PM.bind_of_throw hq] at h; cases h
    | ub w => rw [PM.bind_of_ub hq] at h; cases h
    | ok k =>
      rw [PM.bind_of_ok hq, sortResult_unsorted _ hs] at h
      cases h
      exact hpost l (by rw [hq])
  intro r hr
  obtain ⟨h1, h2⟩ := hone r hr
  refine ⟨.inl h1, ?_⟩
  rw [first, last, h1, h2]
  exact Nat.le_refl _

end Verif
