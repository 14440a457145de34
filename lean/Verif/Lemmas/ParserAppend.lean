import Verif.Lemmas.Parser

/-!
# Lemmas about the parser: the functions only append to the vector they are given
-/

namespace Verif.Parser

/-- Put ranges in front of the ones returned. -/
def prepend (result : List Range) (m : PM (List Range)) : PM (List Range) := m >>= fun l => Pure.pure (result ++ l)

theorem prepend_bind {α : Type} (result : List Range) (m : PM α) (f : α → PM (List Range)) :
    prepend result (m >>= f) = m >>= fun a => prepend result (f a) := by
  rw [prepend, PM.bind_assoc]
  rfl

theorem prepend_pure (result l : List Range) : prepend result (Pure.pure l) = Pure.pure (result ++ l) := rfl

theorem prepend_throw (result : List Range) (e : Exc) : prepend result (PM.throw e) = PM.throw e := rfl

theorem prepend_prepend (a b : List Range) (m : PM (List Range)) : prepend a (prepend b m) = prepend (a ++ b) m := by
  rw [prepend, prepend, PM.bind_assoc]
  simp [prepend]

theorem bind_congr {α β : Type} {m : PM α} {f g : α → PM β} (h : ∀ a, f a = g a) : (m >>= f) = (m >>= g) := by
  have : f = g := funext h
  rw [this]

theorem append_addrinfoLoop (hostname : Str) (d : Bool) (l : List AddrInfo) (first : Bool) (a b : List Range) :
    addrinfoLoop hostname d l first (a ++ b) = prepend a (addrinfoLoop hostname d l first b) := by
  induction l generalizing first b with
  | nil => rw [addrinfoLoop, addrinfoLoop, prepend_pure]
  | cons x l ih =>
    cases x with
    | inet len pr sa =>
      rw [addrinfoLoop, addrinfoLoop]
      split
      · rw [prepend_bind]
        exact bind_congr fun _ => ih _ _
      · rw [prepend_bind]
        refine bind_congr fun r => ?_
        rw [List.append_assoc, ih]
    | inet6 len pr sa =>
      rw [addrinfoLoop, addrinfoLoop]
      split
      · rw [prepend_bind]
        exact bind_congr fun _ => ih _ _
      · rw [prepend_bind]
        refine bind_congr fun r => ?_
        rw [List.append_assoc, ih]
    | other fam =>
      rw [addrinfoLoop, addrinfoLoop]
      split
      · rw [prepend_bind]
        exact bind_congr fun _ => ih _ _
      · exact ih _ _

theorem append_lookupAddress (env : ParseEnv) (address port : Str) (d : Bool) (result : List Range) :
    lookupAddress env address port d result = prepend result (lookupAddress env address port d []) := by
  unfold lookupAddress
  rw [prepend_bind]
  refine bind_congr fun c => ?_
  split
  · rw [prepend_bind]
    refine bind_congr fun _ => ?_
    rw [prepend_pure, List.append_nil]
  · rw [← append_addrinfoLoop, List.append_nil]

theorem append_numericAddress (address : Str) (port : Int) (d : Bool) (result : List Range) :
    numericAddress address port d result = prepend result (numericAddress address port d []) := by
  unfold numericAddress
  rw [prepend_bind]
  refine bind_congr fun c => ?_
  dsimp only
  split
  · rw [prepend_bind]
    exact bind_congr fun _ => rfl
  · split
    · rw [prepend_bind]
      exact bind_congr fun _ => rfl
    · rw [prepend_bind]
      refine bind_congr fun _ => ?_
      rw [prepend_pure, List.append_nil]

theorem append_noLookupAddress (env : ParseEnv) (address port : Str) (d : Bool) (result : List Range) :
    noLookupAddress env address port d result = prepend result (noLookupAddress env address port d []) := by
  have hemit : ∀ m : Str, (emitError m >>= fun _ => (Pure.pure result : PM (List Range)))
      = prepend result (emitError m >>= fun _ => (Pure.pure [] : PM (List Range))) := by
    intro m
    rw [prepend_bind]
    refine bind_congr fun _ => ?_
    rw [prepend_pure, List.append_nil]
  unfold noLookupAddress
  rw [prepend_bind]
  refine bind_congr fun a => ?_
  rw [prepend_bind]
  refine bind_congr fun b => ?_
  repeat' (first | exact hemit _ | exact append_numericAddress _ _ _ _ | split)

theorem append_parseAddressPort (env : ParseEnv) (address port : Str) (result : List Range) (v6 : Bool) :
    parseAddressPort env address port result v6 = prepend result (parseAddressPort env address port [] v6) := by
  have hemit : ∀ m : Str, (emitError m >>= fun _ => (Pure.pure result : PM (List Range)))
      = prepend result (emitError m >>= fun _ => (Pure.pure [] : PM (List Range))) := by
    intro m
    rw [prepend_bind]
    refine bind_congr fun _ => ?_
    rw [prepend_pure, List.append_nil]
  unfold parseAddressPort
  rw [prepend_bind]
  refine bind_congr fun a => ?_
  dsimp only
  repeat' (first | exact hemit _ | exact append_lookupAddress _ _ _ _ _ | exact append_noLookupAddress _ _ _ _ _ | split)

theorem append_parseAddressRangePort (env : ParseEnv) (address port : Str) (result : List Range) (v6 : Bool) :
    parseAddressRangePort env address port result v6 = prepend result (parseAddressRangePort env address port [] v6) := by
  have hnil : (Pure.pure result : PM (List Range)) = prepend result (Pure.pure []) := by
    rw [prepend_pure, List.append_nil]
  unfold parseAddressRangePort
  rw [prepend_bind]
  refine bind_congr fun a => ?_
  dsimp only
  split
  · exact append_parseAddressPort _ _ _ _ _
  · rw [prepend_bind]
    exact bind_congr fun _ => hnil
  · rw [prepend_bind]
    refine bind_congr fun r => ?_
    cases r with
    | none => exact hnil
    | some r => rfl
  · rw [prepend_bind]
    refine bind_congr fun r => ?_
    cases r with
    | none => exact hnil
    | some r => rfl
  · rw [prepend_bind]
    refine bind_congr fun r => ?_
    cases r with
    | none => exact hnil
    | some r =>
      rw [prepend_bind]
      refine bind_congr fun t => ?_
      cases t with
      | none => exact hnil
      | some t =>
        dsimp only
        split
        · rfl
        · exact hnil

theorem append_parseAddress4 (env : ParseEnv) (inp : Str) (result : List Range) :
    parseAddress4 env inp result = prepend result (parseAddress4 env inp []) := by
  unfold parseAddress4
  rw [prepend_bind]
  refine bind_congr fun c => ?_
  split
  · exact append_parseAddressRangePort _ _ _ _ _
  · split
    · exact append_parseAddressRangePort _ _ _ _ _
    · rw [prepend_bind]
      refine bind_congr fun _ => ?_
      rw [prepend_pure, List.append_nil]

theorem append_parseAddress6 (env : ParseEnv) (inp : Str) (n : Nat) (result : List Range) :
    parseAddress6 env inp n result = prepend result (parseAddress6 env inp n []) := by
  have hemit : ∀ m : Str, (emitError m >>= fun _ => (Pure.pure result : PM (List Range)))
      = prepend result (emitError m >>= fun _ => (Pure.pure [] : PM (List Range))) := by
    intro m
    rw [prepend_bind]
    refine bind_congr fun _ => ?_
    rw [prepend_pure, List.append_nil]
  unfold parseAddress6
  rw [prepend_bind]
  refine bind_congr fun c => ?_
  repeat' (first | exact hemit _ | exact append_parseAddressRangePort _ _ _ _ _ | exact (prepend_throw _ _).symm | split)

theorem append_parseAddress (env : ParseEnv) (inp mask : Str) (result : List Range) :
    parseAddress env inp mask result
      = (parseAddress env inp mask [] >>= fun x => (Pure.pure (x.1, result ++ x.2) : PM (Bool × List Range))) := by
  have h4 : ∀ b : Bool, (parseAddress4 env inp result >>= fun l => (Pure.pure (b, l) : PM (Bool × List Range)))
      = ((parseAddress4 env inp [] >>= fun l => (Pure.pure (b, l) : PM (Bool × List Range)))
          >>= fun x => (Pure.pure (x.1, result ++ x.2) : PM (Bool × List Range))) := by
    intro b
    rw [append_parseAddress4, prepend, PM.bind_assoc, PM.bind_assoc]
    rfl
  have h6 : ∀ (b : Bool) (n : Nat), (parseAddress6 env inp n result >>= fun l => (Pure.pure (b, l) : PM (Bool × List Range)))
      = ((parseAddress6 env inp n [] >>= fun l => (Pure.pure (b, l) : PM (Bool × List Range)))
          >>= fun x => (Pure.pure (x.1, result ++ x.2) : PM (Bool × List Range))) := by
    intro b n
    rw [append_parseAddress6, prepend, PM.bind_assoc, PM.bind_assoc]
    rfl
  unfold parseAddress
  rw [PM.bind_assoc]
  refine bind_congr fun c => ?_
  dsimp only
  repeat' (first | exact h4 _ | exact h6 _ _ | split)

theorem append_parseCidr (env : ParseEnv) (inp : Str) (result : List Range) :
    parseCidr env inp result = prepend result (parseCidr env inp []) := by
  unfold parseCidr
  rw [prepend_bind]
  refine bind_congr fun c => ?_
  split
  · rw [prepend_bind]
    refine bind_congr fun n => ?_
    rw [prepend_bind]
    refine bind_congr fun x => ?_
    rw [prepend_bind]
    refine bind_congr fun l => ?_
    rw [prepend_bind]
    refine bind_congr fun m => ?_
    split
    · rfl
    · rw [prepend_pure, List.append_nil]
  · dsimp only
    rw [append_parseAddress, PM.bind_assoc, prepend_bind]
    rfl

theorem append_parseEntry (env : ParseEnv) (inp : Str) (result : List Range) :
    parseEntry env inp result = prepend result (parseEntry env inp []) := by
  unfold parseEntry
  split
  · exact append_parseCidr _ _ _
  · rw [prepend_pure, List.append_nil]

end Verif.Parser
