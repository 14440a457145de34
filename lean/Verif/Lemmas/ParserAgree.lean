import Verif.Lemmas.Parser

/-!
# Lemmas about the parser: reading an address does not depend on `ALLOW_MASK` nor on the default masks
-/

namespace Verif.Parser

/-- Two configurations which differ only in what concerns masks, separators, comments, sorting and empty ranges. -/
structure AgreeBase (c c' : Config) : Prop where
  requiredAddress : c.flags .requiredAddress = c'.flags .requiredAddress
  addressLookup : c.flags .addressLookup = c'.flags .addressLookup
  addressRange : c.flags .addressRange = c'.flags .addressRange
  port : c.flags .port = c'.flags .port
  requiredPort : c.flags .requiredPort = c'.flags .requiredPort
  address4 : c.defaultAddress4 = c'.defaultAddress4
  address6 : c.defaultAddress6 = c'.defaultAddress6
  protocol : c.protocol = c'.protocol
  defaultPort : c.defaultPort = c'.defaultPort

/-- Two configurations which differ only in what concerns masks, separators, comments and sorting. -/
structure Agree (c c' : Config) : Prop extends AgreeBase c c' where
  noEmpty : c.sort &&& SORT_NO_EMPTY = c'.sort &&& SORT_NO_EMPTY

/-- The two computations have the same outcome and emit the same errors with the respective configurations. -/
def Rel {α : Type} (c c' : Config) (m m' : PM α) : Prop :=
  ∀ p p' : Parser, p.config = c → p'.config = c' → p.error = p'.error → p.errorCount = p'.errorCount →
    (m p).2 = (m' p').2 ∧ (m p).1.error = (m' p').1.error ∧ (m p).1.errorCount = (m' p').1.errorCount
      ∧ (m p).1.config = c ∧ (m' p').1.config = c'

theorem rel_pure {α : Type} (c c' : Config) (a : α) : Rel c c' (Pure.pure a : PM α) (Pure.pure a) :=
  fun _ _ h1 h2 h3 h4 => ⟨rfl, h3, h4, h1, h2⟩

theorem rel_lift {α : Type} (c c' : Config) (r : Res α) : Rel c c' (PM.lift r) (PM.lift r) :=
  fun _ _ h1 h2 h3 h4 => ⟨rfl, h3, h4, h1, h2⟩

theorem rel_throw {α : Type} (c c' : Config) (e : Exc) : Rel c c' (PM.throw e : PM α) (PM.throw e) :=
  fun _ _ h1 h2 h3 h4 => ⟨rfl, h3, h4, h1, h2⟩

theorem rel_emit (c c' : Config) (m : Str) : Rel c c' (emitError m) (emitError m) :=
  fun p p' h1 h2 h3 h4 => by
    refine ⟨rfl, ?_, ?_, h1, h2⟩
    · simp [emitError, h3]
    · simp [emitError, h4]

theorem rel_config {β : Type} {c c' : Config} {f f' : Config → PM β} (h : Rel c c' (f c) (f' c')) :
    Rel c c' (PM.config >>= f) (PM.config >>= f') := by
  intro p p' h1 h2 h3 h4
  rw [PM.config_bind, PM.config_bind, h1, h2]
  exact h p p' h1 h2 h3 h4

theorem rel_getAllow {β : Type} {c c' : Config} {x : Allow} {f f' : Bool → PM β} (hx : c.flags x = c'.flags x)
    (h : Rel c c' (f (c.flags x)) (f' (c.flags x))) : Rel c c' (getAllow x >>= f) (getAllow x >>= f') := by
  intro p p' h1 h2 h3 h4
  have e : ∀ (q : Parser) (g : Bool → PM β), (getAllow x >>= g) q = g (q.config.flags x) q := fun _ _ => rfl
  rw [e, e, h1, h2, ← hx]
  exact h p p' h1 h2 h3 h4

theorem rel_bind {α β : Type} {c c' : Config} {m m' : PM α} {f f' : α → PM β} (h : Rel c c' m m')
    (hf : ∀ a, Rel c c' (f a) (f' a)) : Rel c c' (m >>= f) (m' >>= f') := by
  intro p p' h1 h2 h3 h4
  obtain ⟨e1, e2, e3, e4, e5⟩ := h p p' h1 h2 h3 h4
  simp only [PM.bind_def]
  rcases hm : m p with ⟨q, r⟩
  rcases hm' : m' p' with ⟨q', r'⟩
  rw [hm, hm'] at e1 e2 e3
  rw [hm] at e4
  rw [hm'] at e5
  dsimp only at e1 e2 e3 e4 e5
  subst e1
  cases r with
  | ok a => exact hf a q q' e4 e5 e2 e3
  | throw e => exact ⟨rfl, e2, e3, e4, e5⟩
  | ub w => exact ⟨rfl, e2, e3, e4, e5⟩

/-- One step of the proofs that two computations are related. -/
macro "rel_step" : tactic => `(tactic| first
  | exact rel_pure _ _ _ | exact rel_lift _ _ _ | exact rel_throw _ _ _ | exact rel_emit _ _ _ | assumption
  | (refine rel_bind ?_ (fun _ => ?_)) | split)

section
variable {c c' : Config} (h : AgreeBase c c')

theorem rel_addrinfoLoop (hostname : Str) (d : Bool) (l : List AddrInfo) (first : Bool)
    (result : List Range) : Rel c c' (addrinfoLoop hostname d l first result) (addrinfoLoop hostname d l first result) := by
  induction l generalizing first result with
  | nil => rw [addrinfoLoop]; exact rel_pure _ _ _
  | cons x l ih =>
    cases x <;> rw [addrinfoLoop] <;> repeat' (first | exact ih _ _ | rel_step)

include h

theorem rel_lookupAddress (env : ParseEnv) (address port : Str) (d : Bool) (result : List Range) :
    Rel c c' (lookupAddress env address port d result) (lookupAddress env address port d result) := by
  unfold lookupAddress
  refine rel_config ?_
  rw [h.protocol]
  repeat' (first | exact rel_addrinfoLoop _ _ _ _ _ | rel_step)

theorem rel_numericAddress (address : Str) (port : Int) (d : Bool) (result : List Range) :
    Rel c c' (numericAddress address port d result) (numericAddress address port d result) := by
  unfold numericAddress
  dsimp only
  refine rel_config ?_
  rw [h.protocol]
  repeat' rel_step

theorem rel_noLookupAddress (env : ParseEnv) (address port : Str) (d : Bool) (result : List Range) :
    Rel c c' (noLookupAddress env address port d result) (noLookupAddress env address port d result) := by
  unfold noLookupAddress
  refine rel_getAllow h.port (rel_getAllow h.requiredPort ?_)
  repeat' (first | exact rel_numericAddress h _ _ _ _ | rel_step)

theorem rel_parseAddressPort (env : ParseEnv) (address port : Str) (result : List Range) (v6 : Bool) :
    Rel c c' (parseAddressPort env address port result v6) (parseAddressPort env address port result v6) := by
  unfold parseAddressPort
  refine rel_config ?_
  dsimp only
  rw [h.requiredPort, h.requiredAddress, h.addressLookup, h.address4, h.address6, h.defaultPort]
  split
  · repeat' rel_step
  · split
    · repeat' rel_step
    · split
      · exact rel_lookupAddress h _ _ _ _ _
      · exact rel_noLookupAddress h _ _ _ _ _

theorem rel_ignoreDuplicates (env : ParseEnv) (address port : Str) (result : List Range) (v6 : Bool) :
    Rel c c' (ignoreDuplicates env address port result v6) (ignoreDuplicates env address port result v6) := by
  unfold ignoreDuplicates
  repeat' (first | exact rel_parseAddressPort h _ _ _ _ _ | rel_step)

theorem rel_parseBound (env : ParseEnv) (w address port : Str) (v6 : Bool) :
    Rel c c' (parseBound env w address port v6) (parseBound env w address port v6) := by
  unfold parseBound
  repeat' (first | exact rel_ignoreDuplicates h _ _ _ _ _ | rel_step)

end

section
variable {c c' : Config} (h : Agree c c')
include h

theorem rel_parseAddressRangePort (env : ParseEnv) (address port : Str) (result : List Range) (v6 : Bool) :
    Rel c c' (parseAddressRangePort env address port result v6) (parseAddressRangePort env address port result v6) := by
  unfold parseAddressRangePort
  refine rel_config ?_
  dsimp only
  rw [h.addressRange, h.noEmpty]
  repeat' (first | exact rel_parseAddressPort h.toAgreeBase _ _ _ _ _ | exact rel_parseBound h.toAgreeBase _ _ _ _ _ | rel_step)

theorem rel_parseAddress4 (env : ParseEnv) (inp : Str) (result : List Range) :
    Rel c c' (parseAddress4 env inp result) (parseAddress4 env inp result) := by
  unfold parseAddress4
  refine rel_config ?_
  rw [h.port, h.requiredPort]
  repeat' (first | exact rel_parseAddressRangePort h _ _ _ _ _ | rel_step)

theorem rel_parseAddress6 (env : ParseEnv) (inp : Str) (n : Nat) (result : List Range) :
    Rel c c' (parseAddress6 env inp n result) (parseAddress6 env inp n result) := by
  unfold parseAddress6
  refine rel_config ?_
  rw [h.port, h.requiredPort]
  repeat' (first | exact rel_parseAddressRangePort h _ _ _ _ _ | rel_step)

theorem rel_parseAddress (env : ParseEnv) (inp mask : Str) (result : List Range) :
    Rel c c' (parseAddress env inp mask result) (parseAddress env inp mask result) := by
  unfold parseAddress
  refine rel_config ?_
  dsimp only
  rw [h.port, h.requiredPort, h.address4, h.address6]
  repeat' (first | exact rel_parseAddress4 h _ _ _ | exact rel_parseAddress6 h _ _ _ _ | rel_step)

end

/-- The default mask of IPv6 addresses is only used when it has a colon. -/
def usedMask6 (c : Config) : Str := if ':' ∈ c.defaultMask6 then c.defaultMask6 else []

/-- Two configurations which differ only in what concerns separators, comments and sorting, and in masks which are not used. -/
structure AgreeMask (c c' : Config) : Prop extends Agree c c' where
  mask : c.flags .mask = c'.flags .mask
  addressMask : c.flags .addressMask = c'.flags .addressMask
  mask4 : c.defaultMask4 = c'.defaultMask4
  mask6 : usedMask6 c = usedMask6 c'

section
variable {c c' : Config}

theorem chooseMask_used (c : Config) (mask : Str) (v4 : Bool) : chooseMask c mask v4 =
    if mask ≠ [] then mask else if v4 then c.defaultMask4 else if usedMask6 c = [] then [] else '[' :: usedMask6 c ++ [']'] := by
  unfold chooseMask usedMask6
  by_cases h : ':' ∈ c.defaultMask6
  · have h0 : c.defaultMask6 ≠ [] := by
      rintro h1
      rw [h1] at h
      cases h
    rw [if_pos h, if_pos (And.intro h0 h), if_neg h0]
  · rw [if_neg h, if_pos rfl, if_neg (fun x : c.defaultMask6 ≠ [] ∧ ':' ∈ c.defaultMask6 => h x.2)]

theorem rel_addressMask (h : c.flags .addressMask = c'.flags .addressMask) (env : ParseEnv) (mask : Str) (a : Addr) (v4 : Bool) :
    Rel c c' (addressMask env mask a v4) (addressMask env mask a v4) := by
  unfold addressMask
  dsimp only
  refine rel_config ?_
  rw [h]
  repeat' rel_step

theorem rel_parseMask (h : c.flags .addressMask = c'.flags .addressMask) (env : ParseEnv) (mask : Str) (a : Addr) (v4 : Bool) :
    Rel c c' (parseMask env mask a v4) (parseMask env mask a v4) := by
  unfold parseMask
  repeat' (first | exact rel_addressMask h _ _ _ _ | rel_step)

theorem rel_maskLoop (h : c.flags .addressMask = c'.flags .addressMask) (h4 : c.defaultMask4 = c'.defaultMask4)
    (h6 : usedMask6 c = usedMask6 c') (env : ParseEnv) (mask : Str) (v4 : Bool) (l : List Range) :
    Rel c c' (maskLoop env mask v4 l) (maskLoop env mask v4 l) := by
  induction l with
  | nil => exact rel_pure _ _ _
  | cons x l ih =>
    rw [maskLoop]
    refine rel_config ?_
    have : chooseMask c mask v4 = chooseMask c' mask v4 := by rw [chooseMask_used, chooseMask_used, h4, h6]
    rw [this]
    repeat' (first | exact rel_parseMask h _ _ _ _ | exact ih | rel_step)

theorem rel_errorCountNow {β : Type} {f f' : Int → PM β} (hf : ∀ n, Rel c c' (f n) (f' n)) :
    Rel c c' (errorCountNow >>= f) (errorCountNow >>= f') := by
  intro p p' h1 h2 h3 h4
  have e : ∀ (q : Parser) (g : Int → PM β), (errorCountNow >>= g) q = g q.errorCount q := fun _ _ => rfl
  rw [e, e, h4]
  exact hf _ p p' h1 h2 h3 h4

theorem rel_parseCidr (h : AgreeMask c c') (env : ParseEnv) (inp : Str) (result : List Range) :
    Rel c c' (parseCidr env inp result) (parseCidr env inp result) := by
  unfold parseCidr
  dsimp only
  refine rel_config ?_
  rw [h.mask]
  split
  · refine rel_errorCountNow fun n => ?_
    refine rel_bind (rel_parseAddress h.toAgree _ _ _ _) fun x => ?_
    refine rel_bind (rel_maskLoop h.addressMask h.mask4 h.mask6 _ _ _ _) fun l => ?_
    refine rel_errorCountNow fun m => ?_
    repeat' rel_step
  · exact rel_bind (rel_parseAddress h.toAgree _ _ _ _) fun x => rel_pure _ _ _

end

end Verif.Parser
