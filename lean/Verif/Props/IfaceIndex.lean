import Verif.Model.IfaceIndex
import Verif.Props.IfaceList
import Verif.Props.UnixHistory

/-!
# Property C127: interfaces by name and by index
-/

namespace Verif

open Iface

namespace Spec

/-- The interfaces of a system: an index from 1 and a name each. -/
structure Interfaces where
  table : List (Nat × Str)
  index : ∀ e ∈ table, 1 ≤ e.1 ∧ e.1 ≤ 4294967295
  name : ∀ e ∈ table, '\x00' ∉ e.2
  oneName : ∀ e ∈ table, ∀ f ∈ table, e.1 = f.1 → e.2 = f.2
  oneIndex : ∀ e ∈ table, ∀ f ∈ table, e.2 = f.2 → e.1 = f.1

/-- `if_indextoname()` and `if_nametoindex()` of a system with these interfaces. -/
structure Interfaces.Answers (t : Interfaces) (nameOf : Nat → Option Str) (indexOf : Str → Nat) : Prop where
  nameOf : ∀ i n, nameOf i = some n ↔ (i, n) ∈ t.table
  found : ∀ i n, (i, n) ∈ t.table → indexOf n = i
  notFound : ∀ n, (∀ i, (i, n) ∉ t.table) → indexOf n = 0

end Spec

open Spec

/-- C127: a name which is listed with an index has this index. -/
theorem C127_listed (t : Interfaces) (nameOf : Nat → Option Str) (indexOf : Str → Nat) (h : t.Answers nameOf indexOf)
    (i : Nat) (n : Str) (hm : (i, n) ∈ nameIndex nameOf) : indexByName indexOf n = i := by
  have hn := ((C66_name_index_partial nameOf i n).1 hm).2.2.1
  have ht := (h.nameOf i n).1 hn
  rw [indexByName, cstr_noNul fun c hc e => t.name _ ht (e ▸ hc)]
  exact h.found i n ht

/-- C127: a name without a null character has the index of the interface with this name, 0 if there is none. -/
theorem C127_index_partial (t : Interfaces) (nameOf : Nat → Option Str) (indexOf : Str → Nat) (h : t.Answers nameOf indexOf)
    (n : Str) (h0 : '\x00' ∉ n) :
    (∀ i, i ≠ 0 → (indexByName indexOf n = i ↔ (i, n) ∈ t.table))
      ∧ (indexByName indexOf n = 0 ↔ ∀ i, (i, n) ∉ t.table) := by
  rw [indexByName, cstr_noNul fun c hc e => h0 (e ▸ hc)]
  have key : (∃ i, (i, n) ∈ t.table) ∨ ∀ i, (i, n) ∉ t.table := by
    by_cases hx : ∃ i, (i, n) ∈ t.table
    · exact .inl hx
    · exact .inr fun i hi => hx ⟨i, hi⟩
  rcases key with ⟨j, hj⟩ | hn
  · have hi := h.found j n hj
    have h1 := (t.index _ hj).1
    refine ⟨fun i _ => ⟨fun e => ?_, fun e => h.found i n e⟩, fun e => ?_, fun e => absurd hj (e j)⟩
    · rw [← e, hi]; exact hj
    · rw [hi] at e; exact absurd e (Nat.ne_of_gt h1)
  · have hi := h.notFound n hn
    exact ⟨fun i h' => ⟨fun e => absurd (hi.symm.trans e).symm h', fun e => absurd e (hn i)⟩, fun _ => hn, fun _ => hi⟩

/-- C127: what comes after a null character does not count. -/
theorem C127_nul (indexOf : Str → Nat) (n rest : Str) (h0 : '\x00' ∉ n) :
    indexByName indexOf (n ++ '\x00' :: rest) = indexByName indexOf n := by
  rw [indexByName, cstr_cut h0, indexByName, cstr_noNul fun c hc e => h0 (e ▸ hc)]

/-- C127: an interface which is found by its name is listed if all the smaller indexes are interfaces too. -/
theorem C127_in_list (t : Interfaces) (nameOf : Nat → Option Str) (indexOf : Str → Nat) (h : t.Answers nameOf indexOf)
    (n : Str) (h0 : '\x00' ∉ n) (hn : indexByName indexOf n ≠ 0)
    (hg : ∀ k, 1 ≤ k → k < indexByName indexOf n → ∃ m, (k, m) ∈ t.table) :
    (indexByName indexOf n, n) ∈ nameIndex nameOf := by
  have hm := ((C127_index_partial t nameOf indexOf h n h0).1 _ hn).1 rfl
  refine (C66_name_index_partial nameOf _ n).2 ⟨(t.index _ hm).1, (t.index _ hm).2, (h.nameOf _ n).2 hm, fun k h1 h2 hk => ?_⟩
  obtain ⟨m, hm'⟩ := hg k h1 h2
  rw [(h.nameOf k m).2 hm'] at hk
  exact nomatch hk

/-- The full claim: 0 for every text which is not the name of an interface. -/
def C127_claim : Prop :=
  ∀ (t : Interfaces) (nameOf : Nat → Option Str) (indexOf : Str → Nat), t.Answers nameOf indexOf →
    ∀ n, (∀ i, (i, n) ∉ t.table) → indexByName indexOf n = 0

/-- A system with the loopback interface. -/
def loopbackOnly : Interfaces where
  table := [(1, "lo".toList)]
  index := by decide
  name := by decide
  oneName := by decide
  oneIndex := by decide

theorem loopbackOnly_answers :
    loopbackOnly.Answers (fun i => if i = 1 then some "lo".toList else none) (fun n => if n = "lo".toList then 1 else 0) where
  nameOf i n := by
    show (if i = 1 then some "lo".toList else none) = some n ↔ (i, n) ∈ [(1, "lo".toList)]
    rw [List.mem_singleton, Prod.mk.injEq]
    by_cases h : i = 1
    · rw [if_pos h]; exact ⟨fun e => ⟨h, (Option.some.inj e).symm⟩, fun e => by rw [e.2]⟩
    · rw [if_neg h]; exact ⟨(fun e => nomatch e), fun e => absurd e.1 h⟩
  found i n hm := by
    have e := List.mem_singleton.1 (show (i, n) ∈ [(1, "lo".toList)] from hm)
    rw [Prod.mk.injEq] at e
    rw [if_pos e.2, e.1]
  notFound n hn := by
    refine if_neg fun e => hn 1 ?_
    rw [e]; exact List.mem_singleton.2 rfl

/-- False with a null character: `"lo\0x"` is taken for `"lo"`. -/
theorem C127_claim_fails : ¬ C127_claim := by
  intro h
  have := h loopbackOnly _ _ loopbackOnly_answers ("lo".toList ++ '\x00' :: "x".toList) (by
    intro i hm
    have e := List.mem_singleton.1 (show _ ∈ [(1, "lo".toList)] from hm)
    exact absurd (show "lo".toList ++ '\x00' :: "x".toList = "lo".toList from congrArg Prod.snd e) (by decide))
  exact absurd this (by decide)

/-- The hypotheses can be met. -/
example : (1, "lo".toList) ∈ nameIndex (fun i => if i = 1 then some "lo".toList else none)
    ∧ indexByName (fun n => if n = "lo".toList then 1 else 0) "lo".toList = 1
    ∧ indexByName (fun n => if n = "lo".toList then 1 else 0) "eth0".toList = 0 :=
  ⟨(C66_name_index_partial _ 1 _).2 ⟨by decide, by decide, rfl, fun k h1 h2 => by omega⟩, by decide, by decide⟩

end Verif
