import Verif.Lemmas.Parser

/-!
# Lemmas about the parser: two environments which differ only in the name service
-/

namespace Verif.Parser

/-- Two computations which do the same with configuration `c`. -/
def Same {α : Type} (c : Config) (m1 m2 : PM α) : Prop := ∀ p : Parser, p.config = c → m1 p = m2 p

theorem same_refl {α : Type} (c : Config) (m : PM α) : Same c m m := fun _ _ => rfl

theorem same_bind {α β : Type} {c : Config} {m1 m2 : PM α} {f1 f2 : α → PM β} (hl : Logging c m1) (h : Same c m1 m2)
    (hf : ∀ a, Same c (f1 a) (f2 a)) : Same c (m1 >>= f1) (m2 >>= f2) := by
  intro p hp
  obtain ⟨errs, r, hl⟩ := hl
  have h2 : m2 p = (emitAll errs p, r) := by rw [← h p hp, hl p hp]
  simp only [PM.bind_def, hl p hp, h2]
  cases r with
  | ok a => exact hf a _ (by simpa using hp)
  | throw e => rfl
  | ub w => rfl

theorem same_config {β : Type} {c : Config} {f1 f2 : Config → PM β} (h : Same c (f1 c) (f2 c)) :
    Same c (PM.config >>= f1) (PM.config >>= f2) := by
  intro p hp
  rw [PM.config_bind, PM.config_bind, hp]
  exact h p hp

section
variable {env1 env2 : ParseEnv} {c : Config} (hconv : env1.convert = env2.convert) (hl : c.flags .addressLookup = false)
include hconv

theorem same_noLookupAddress (address port : Str) (d : Bool) (result : List Range) :
    Same c (noLookupAddress env1 address port d result) (noLookupAddress env2 address port d result) := by
  unfold noLookupAddress
  rw [hconv]
  exact same_refl _ _

include hl

theorem same_parseAddressPort (address port : Str) (result : List Range) (v6 : Bool) :
    Same c (parseAddressPort env1 address port result v6) (parseAddressPort env2 address port result v6) := by
  unfold parseAddressPort
  refine same_config ?_
  dsimp only
  rw [if_neg (c := c.flags .addressLookup = true) (by simp [hl]), if_neg (c := c.flags .addressLookup = true) (by simp [hl])]
  split
  · exact same_refl _ _
  · split
    · exact same_refl _ _
    · exact same_noLookupAddress hconv _ _ _ _

theorem same_ignoreDuplicates (address port : Str) (result : List Range) (v6 : Bool) :
    Same c (ignoreDuplicates env1 address port result v6) (ignoreDuplicates env2 address port result v6) := by
  unfold ignoreDuplicates
  exact same_bind (logging_parseAddressPort _ _ _ _ _ _) (same_parseAddressPort hconv hl _ _ _ _) fun _ => same_refl _ _

theorem same_parseBound (w address port : Str) (v6 : Bool) :
    Same c (parseBound env1 w address port v6) (parseBound env2 w address port v6) := by
  unfold parseBound
  exact same_bind (logging_ignoreDuplicates _ _ _ _ _ _) (same_ignoreDuplicates hconv hl _ _ _ _) fun _ => same_refl _ _

theorem same_parseAddressRangePort (address port : Str) (result : List Range) (v6 : Bool) :
    Same c (parseAddressRangePort env1 address port result v6) (parseAddressRangePort env2 address port result v6) := by
  unfold parseAddressRangePort
  refine same_config ?_
  dsimp only
  split
  · exact same_parseAddressPort hconv hl _ _ _ _
  · exact same_refl _ _
  · exact same_bind (logging_parseBound _ _ _ _ _ _) (same_parseBound hconv hl _ _ _ _) fun _ => same_refl _ _
  · exact same_bind (logging_parseBound _ _ _ _ _ _) (same_parseBound hconv hl _ _ _ _) fun _ => same_refl _ _
  · refine same_bind (logging_parseBound _ _ _ _ _ _) (same_parseBound hconv hl _ _ _ _) fun r => ?_
    cases r with
    | none => exact same_refl _ _
    | some r =>
      exact same_bind (logging_parseBound _ _ _ _ _ _) (same_parseBound hconv hl _ _ _ _) fun _ => same_refl _ _

theorem same_parseAddress4 (inp : Str) (result : List Range) :
    Same c (parseAddress4 env1 inp result) (parseAddress4 env2 inp result) := by
  unfold parseAddress4
  refine same_config ?_
  split
  · exact same_parseAddressRangePort hconv hl _ _ _ _
  · split
    · exact same_parseAddressRangePort hconv hl _ _ _ _
    · exact same_refl _ _

theorem same_parseAddress6 (inp : Str) (n : Nat) (result : List Range) :
    Same c (parseAddress6 env1 inp n result) (parseAddress6 env2 inp n result) := by
  unfold parseAddress6
  refine same_config ?_
  repeat' (first | exact same_parseAddressRangePort hconv hl _ _ _ _ | exact same_refl _ _ | split)

theorem same_parseAddress (inp mask : Str) (result : List Range) :
    Same c (parseAddress env1 inp mask result) (parseAddress env2 inp mask result) := by
  have h4 : Same c (do return (true, ← parseAddress4 env1 inp result) : PM (Bool × List Range))
      (do return (true, ← parseAddress4 env2 inp result)) :=
    same_bind (logging_parseAddress4 _ _ _ _) (same_parseAddress4 hconv hl _ _) fun _ => same_refl _ _
  have h6 : Same c (do return (false, ← parseAddress6 env1 inp (inp.count ':') result) : PM (Bool × List Range))
      (do return (false, ← parseAddress6 env2 inp (inp.count ':') result)) :=
    same_bind (logging_parseAddress6 _ _ _ _ _) (same_parseAddress6 hconv hl _ _ _) fun _ => same_refl _ _
  unfold parseAddress
  refine same_config ?_
  dsimp only
  repeat' (first | exact h4 | exact h6 | split)

end

theorem same_addressMask {env1 env2 : ParseEnv} {c : Config} (hm : c.flags .addressMask = false) (mask : Str) (a : Addr)
    (v4 : Bool) : Same c (addressMask env1 mask a v4) (addressMask env2 mask a v4) := by
  unfold addressMask
  refine same_config ?_
  dsimp only
  rw [if_pos (by simp [hm]), if_pos (by simp [hm])]
  exact same_refl _ _

theorem same_parseMask {env1 env2 : ParseEnv} {c : Config} (hm : c.flags .addressMask = false) (mask : Str) (a : Addr)
    (v4 : Bool) : Same c (parseMask env1 mask a v4) (parseMask env2 mask a v4) := by
  unfold parseMask
  split
  · exact same_refl _ _
  · split
    · exact same_refl _ _
    · exact same_refl _ _
    · exact same_bind (logging_addressMask _ _ _ _ _) (same_addressMask hm _ _ _) fun _ => same_refl _ _

theorem same_maskLoop {env1 env2 : ParseEnv} {c : Config} (hm : c.flags .addressMask = false) (mask : Str) (v4 : Bool)
    (l : List Range) : Same c (maskLoop env1 mask v4 l) (maskLoop env2 mask v4 l) := by
  induction l with
  | nil => exact same_refl _ _
  | cons x l ih =>
    rw [maskLoop, maskLoop]
    refine same_config ?_
    exact same_bind (logging_parseMask _ _ _ _ _) (same_parseMask hm _ _ _) fun _ =>
      same_bind (logging_maskLoop _ _ _ _ _) ih fun _ => same_refl _ _

section
variable {env1 env2 : ParseEnv} {c : Config} (hconv : env1.convert = env2.convert) (hl : c.flags .addressLookup = false)
  (hm : c.flags .addressMask = false ∨ c.flags .mask = false)
include hconv hl hm

theorem same_parseCidr (inp : Str) (result : List Range) :
    Same c (parseCidr env1 inp result) (parseCidr env2 inp result) := by
  intro p hp
  cases h : c.flags .mask with
  | false =>
    rw [parseCidr_nomask _ _ _ _ (by rw [hp]; exact h), parseCidr_nomask _ _ _ _ (by rw [hp]; exact h),
      same_parseAddress hconv hl _ _ _ p hp]
  | true =>
    have hm' : c.flags .addressMask = false := hm.resolve_right (by simp [h])
    rw [parseCidr_mask _ _ _ _ (by rw [hp]; exact h), parseCidr_mask _ _ _ _ (by rw [hp]; exact h)]
    dsimp only
    rw [same_parseAddress hconv hl _ _ _ p hp]
    obtain ⟨errs, r, hl⟩ := logging_parseAddress env2 c ((splitFirst '/' (trimString inp)).getD (trimString inp, [])).1
      ((splitFirst '/' (trimString inp)).getD (trimString inp, [])).2 []
    rw [hl p hp]
    cases r with
    | ok x =>
      dsimp only
      rw [same_maskLoop (env1 := env1) (env2 := env2) hm' _ _ _ _ (by simpa using hp)]
    | throw e => rfl
    | ub w => rfl

theorem same_parseEntry (inp : Str) (result : List Range) :
    Same c (parseEntry env1 inp result) (parseEntry env2 inp result) := by
  unfold parseEntry
  split
  · exact same_parseCidr hconv hl hm _ _
  · exact same_refl _ _

theorem same_parseList (fuel : Nat) (inp : Str) (result : List Range) :
    Same c (parseList env1 fuel inp result) (parseList env2 fuel inp result) := by
  induction fuel generalizing inp result with
  | zero => exact same_refl _ _
  | succ n ih =>
    rw [parseList, parseList]
    refine same_config ?_
    dsimp only
    split
    · exact same_refl _ _
    · split
      · exact same_bind (logging_parseEntry _ _ _ _) (same_parseEntry hconv hl hm _ _) fun _ => ih _ _
      · exact ih _ _

theorem same_parse (inp : Str) : Same c (parse env1 inp) (parse env2 inp) := by
  unfold parse
  refine same_config (same_bind (logging_parseUnsorted _ _ _) ?_ fun _ => same_refl _ _)
  unfold parseUnsorted
  refine same_config ?_
  split
  · unfold parseSingle
    refine same_config ?_
    dsimp only
    split
    · exact same_bind (logging_lift _ _) (same_refl _ _) fun _ => same_parseCidr hconv hl hm _ _
    · exact same_parseCidr hconv hl hm _ _
  · exact same_parseList hconv hl hm _ _ _

end

end Verif.Parser
