import Verif.Model.Parser

/-!
# Lemmas about the parser: every parsing function only appends errors, and what it does depends on the configuration alone
-/

namespace Verif

namespace PM

theorem bind_def {α β : Type} (m : PM α) (f : α → PM β) (p : Parser) :
    (m >>= f) p = match m p with
      | (p', .ok a) => f a p'
      | (p', .throw e) => (p', .throw e)
      | (p', .ub w) => (p', .ub w) := rfl

theorem bind_of_ok {α β : Type} {m : PM α} {f : α → PM β} {p p' : Parser} {a : α} (h : m p = (p', .ok a)) :
    (m >>= f) p = f a p' := by rw [bind_def, h]

theorem bind_of_throw {α β : Type} {m : PM α} {f : α → PM β} {p p' : Parser} {e : Exc} (h : m p = (p', .throw e)) :
    (m >>= f) p = (p', .throw e) := by rw [bind_def, h]

theorem bind_of_ub {α β : Type} {m : PM α} {f : α → PM β} {p p' : Parser} {w : UB} (h : m p = (p', .ub w)) :
    (m >>= f) p = (p', .ub w) := by rw [bind_def, h]

@[simp] theorem pure_apply {α : Type} (a : α) (p : Parser) : (Pure.pure a : PM α) p = (p, .ok a) := rfl
@[simp] theorem config_apply (p : Parser) : PM.config p = (p, .ok p.config) := rfl
@[simp] theorem lift_apply {α : Type} (r : Res α) (p : Parser) : PM.lift r p = (p, r) := rfl
@[simp] theorem throw_apply {α : Type} (e : Exc) (p : Parser) : (PM.throw e : PM α) p = (p, .throw e) := rfl
@[simp] theorem setConfig_apply (c : Config) (p : Parser) : PM.setConfig c p = ({ p with config := c }, .ok ()) := rfl
@[simp] theorem pure_bind {α β : Type} (a : α) (f : α → PM β) : ((Pure.pure a : PM α) >>= f) = f a := rfl
@[simp] theorem config_bind {β : Type} (f : Config → PM β) (p : Parser) : (PM.config >>= f) p = f p.config p := rfl
@[simp] theorem throw_bind {α β : Type} (e : Exc) (f : α → PM β) : ((PM.throw e : PM α) >>= f) = PM.throw e := rfl
@[simp] theorem lift_ok_bind {α β : Type} (a : α) (f : α → PM β) : (PM.lift (.ok a) >>= f) = f a := rfl

theorem bind_assoc {α β γ : Type} (m : PM α) (f : α → PM β) (g : β → PM γ) :
    ((m >>= f) >>= g) = (m >>= fun a => f a >>= g) := by
  funext p
  simp only [bind_def]
  rcases m p with ⟨p', r⟩
  cases r <;> rfl

theorem bind_pure {α : Type} (m : PM α) : (m >>= fun a => (Pure.pure a : PM α)) = m := by
  funext p
  simp only [bind_def]
  rcases h : m p with ⟨p', r⟩
  cases r <;> rfl

end PM

namespace Parser

/-- The parser after the given errors were emitted. -/
def emitAll (errs : List Str) (p : Parser) : Parser :=
  { p with error := p.error ++ errs.flatMap (· ++ ['\n']), errorCount := p.errorCount + errs.length }

@[simp] theorem emitAll_nil (p : Parser) : emitAll [] p = p := by simp [emitAll]

theorem emitAll_append (e1 e2 : List Str) (p : Parser) : emitAll (e1 ++ e2) p = emitAll e2 (emitAll e1 p) := by
  simp [emitAll, List.append_assoc, Int.add_assoc]

@[simp] theorem emitAll_config (errs : List Str) (p : Parser) : (emitAll errs p).config = p.config := rfl

@[simp] theorem emitError_apply (msg : Str) (p : Parser) : emitError msg p = (emitAll [msg] p, .ok ()) := by
  simp [emitError, emitAll]

/-- With configuration `c`, `m` appends the errors `errs` and ends with `r`, whatever errors there were before. -/
def Logs {α : Type} (c : Config) (m : PM α) (errs : List Str) (r : Res α) : Prop :=
  ∀ p : Parser, p.config = c → m p = (emitAll errs p, r)

/-- With configuration `c`, what `m` does does not depend on the errors there were before, and it only adds errors. -/
def Logging {α : Type} (c : Config) (m : PM α) : Prop := ∃ errs r, Logs c m errs r

theorem logs_pure {α : Type} (c : Config) (a : α) : Logs c (Pure.pure a) [] (.ok a) := fun p _ => by simp

theorem logs_lift {α : Type} (c : Config) (r : Res α) : Logs c (PM.lift r) [] r := fun p _ => by simp

theorem logs_throw {α : Type} (c : Config) (e : Exc) : Logs c (PM.throw e : PM α) [] (.throw e) := fun p _ => by simp

theorem logs_config (c : Config) : Logs c PM.config [] (.ok c) := fun p h => by simp [h]

theorem logs_getAllow (c : Config) (f : Allow) : Logs c (getAllow f) [] (.ok (c.flags f)) := fun p h => by
  simp [getAllow, h]

theorem logs_emit (c : Config) (msg : Str) : Logs c (emitError msg) [msg] (.ok ()) := fun p _ => by simp

theorem logs_bind {α β : Type} {c : Config} {m : PM α} {f : α → PM β} {e1 e2 : List Str} {a : α} {r : Res β}
    (h1 : Logs c m e1 (.ok a)) (h2 : Logs c (f a) e2 r) : Logs c (m >>= f) (e1 ++ e2) r := by
  intro p hp
  rw [PM.bind_of_ok (h1 p hp), h2 _ (by simpa using hp), emitAll_append]

theorem logs_bind_throw {α β : Type} {c : Config} {m : PM α} {f : α → PM β} {e1 : List Str} {e : Exc}
    (h1 : Logs c m e1 (.throw e)) : Logs c (m >>= f) e1 (.throw e) := fun p hp => PM.bind_of_throw (h1 p hp)

theorem logs_bind_ub {α β : Type} {c : Config} {m : PM α} {f : α → PM β} {e1 : List Str} {w : UB}
    (h1 : Logs c m e1 (.ub w)) : Logs c (m >>= f) e1 (.ub w) := fun p hp => PM.bind_of_ub (h1 p hp)

theorem logging_bind {α β : Type} {c : Config} {m : PM α} {f : α → PM β} (h1 : Logging c m) (h2 : ∀ a, Logging c (f a)) :
    Logging c (m >>= f) := by
  obtain ⟨e1, r, h1⟩ := h1
  cases r with
  | ok a =>
    obtain ⟨e2, r2, h2⟩ := h2 a
    exact ⟨_, _, logs_bind h1 h2⟩
  | throw e => exact ⟨_, _, logs_bind_throw h1⟩
  | ub w => exact ⟨_, _, logs_bind_ub h1⟩

theorem logging_pure {α : Type} (c : Config) (a : α) : Logging c (Pure.pure a : PM α) := ⟨_, _, logs_pure c a⟩
theorem logging_lift {α : Type} (c : Config) (r : Res α) : Logging c (PM.lift r) := ⟨_, _, logs_lift c r⟩
theorem logging_throw {α : Type} (c : Config) (e : Exc) : Logging c (PM.throw e : PM α) := ⟨_, _, logs_throw c e⟩
theorem logging_config (c : Config) : Logging c PM.config := ⟨_, _, logs_config c⟩
theorem logging_getAllow (c : Config) (f : Allow) : Logging c (getAllow f) := ⟨_, _, logs_getAllow c f⟩
theorem logging_emit (c : Config) (msg : Str) : Logging c (emitError msg) := ⟨_, _, logs_emit c msg⟩

/-- One step of the proofs that a function is `Logging`. -/
macro "logging_step" : tactic => `(tactic| first
  | exact logging_pure _ _ | exact logging_lift _ _ | exact logging_throw _ _ | exact logging_config _
  | exact logging_getAllow _ _ | exact logging_emit _ _ | assumption
  | (refine logging_bind ?_ (fun _ => ?_)) | split)

theorem logging_addrinfoLoop (c : Config) (hostname : Str) (d : Bool) (l : List AddrInfo) (first : Bool)
    (result : List Range) : Logging c (addrinfoLoop hostname d l first result) := by
  induction l generalizing first result with
  | nil => rw [addrinfoLoop]; exact logging_pure _ _
  | cons x l ih =>
    cases x <;> rw [addrinfoLoop] <;> repeat' (first | exact ih _ _ | logging_step)

theorem logging_lookupAddress (env : ParseEnv) (c : Config) (address port : Str) (d : Bool) (result : List Range) :
    Logging c (lookupAddress env address port d result) := by
  unfold lookupAddress
  repeat' (first | exact logging_addrinfoLoop _ _ _ _ _ _ | logging_step)

theorem logging_numericAddress (c : Config) (address : Str) (port : Int) (d : Bool) (result : List Range) :
    Logging c (numericAddress address port d result) := by
  unfold numericAddress
  dsimp only
  repeat' logging_step

theorem logging_noLookupAddress (env : ParseEnv) (c : Config) (address port : Str) (d : Bool) (result : List Range) :
    Logging c (noLookupAddress env address port d result) := by
  unfold noLookupAddress
  repeat' (first | exact logging_numericAddress _ _ _ _ _ | logging_step)

theorem logging_parseAddressPort (env : ParseEnv) (c : Config) (address port : Str) (result : List Range) (v6 : Bool) :
    Logging c (parseAddressPort env address port result v6) := by
  unfold parseAddressPort
  refine logging_bind (logging_config c) (fun c' => ?_)
  dsimp only
  split
  · repeat' logging_step
  · split
    · repeat' logging_step
    · split
      · exact logging_lookupAddress _ _ _ _ _ _
      · exact logging_noLookupAddress _ _ _ _ _ _

theorem logging_ignoreDuplicates (env : ParseEnv) (c : Config) (address port : Str) (result : List Range) (v6 : Bool) :
    Logging c (ignoreDuplicates env address port result v6) := by
  unfold ignoreDuplicates
  repeat' (first | exact logging_parseAddressPort _ _ _ _ _ _ | logging_step)

theorem logging_parseBound (env : ParseEnv) (c : Config) (w address port : Str) (v6 : Bool) :
    Logging c (parseBound env w address port v6) := by
  unfold parseBound
  repeat' (first | exact logging_ignoreDuplicates _ _ _ _ _ _ | logging_step)

theorem logging_parseAddressRangePort (env : ParseEnv) (c : Config) (address port : Str) (result : List Range)
    (v6 : Bool) : Logging c (parseAddressRangePort env address port result v6) := by
  unfold parseAddressRangePort
  dsimp only
  repeat' (first | exact logging_parseAddressPort _ _ _ _ _ _ | exact logging_parseBound _ _ _ _ _ _ | logging_step)

theorem logging_parseAddress4 (env : ParseEnv) (c : Config) (inp : Str) (result : List Range) :
    Logging c (parseAddress4 env inp result) := by
  unfold parseAddress4
  repeat' (first | exact logging_parseAddressRangePort _ _ _ _ _ _ | logging_step)

theorem logging_parseAddress6 (env : ParseEnv) (c : Config) (inp : Str) (n : Nat) (result : List Range) :
    Logging c (parseAddress6 env inp n result) := by
  unfold parseAddress6
  repeat' (first | exact logging_parseAddressRangePort _ _ _ _ _ _ | logging_step)

theorem logging_parseAddress (env : ParseEnv) (c : Config) (inp mask : Str) (result : List Range) :
    Logging c (parseAddress env inp mask result) := by
  unfold parseAddress
  dsimp only
  repeat' (first | exact logging_parseAddress4 _ _ _ _ | exact logging_parseAddress6 _ _ _ _ _ | logging_step)

theorem logging_addressMask (env : ParseEnv) (c : Config) (mask : Str) (a : Addr) (v4 : Bool) :
    Logging c (addressMask env mask a v4) := by
  unfold addressMask
  dsimp only
  refine logging_bind (logging_config c) (fun c' => ?_)
  repeat' logging_step

theorem logging_parseMask (env : ParseEnv) (c : Config) (mask : Str) (a : Addr) (v4 : Bool) :
    Logging c (parseMask env mask a v4) := by
  unfold parseMask
  repeat' (first | exact logging_addressMask _ _ _ _ _ | logging_step)

theorem logging_maskLoop (env : ParseEnv) (c : Config) (mask : Str) (v4 : Bool) (l : List Range) :
    Logging c (maskLoop env mask v4 l) := by
  induction l with
  | nil => exact logging_pure _ _
  | cons x l ih =>
    rw [maskLoop]
    repeat' (first | exact logging_parseMask _ _ _ _ _ | exact ih | logging_step)

/-- `parse_cidr()` in mask mode, in terms of what the address and the masks lead to. -/
theorem parseCidr_mask (env : ParseEnv) (inp : Str) (result : List Range) (p : Parser) (h : p.config.flags .mask = true) :
    parseCidr env inp result p =
      (let am := (splitFirst '/' (trimString inp)).getD (trimString inp, [])
       match parseAddress env am.1 am.2 [] p with
       | (p1, .ok (v4, l)) =>
         match maskLoop env am.2 v4 l p1 with
         | (p2, .ok l2) => (p2, .ok (if p.errorCount = p2.errorCount then result ++ l2 else result))
         | (p2, .throw e) => (p2, .throw e)
         | (p2, .ub w) => (p2, .ub w)
       | (p1, .throw e) => (p1, .throw e)
       | (p1, .ub w) => (p1, .ub w)) := by
  rw [parseCidr, PM.config_bind]
  dsimp only
  rw [if_pos h]
  simp only [PM.bind_def, errorCountNow]
  rcases parseAddress env _ _ [] p with ⟨p1, r1⟩
  cases r1 with
  | ok x =>
    dsimp only
    rcases maskLoop env _ x.1 x.2 p1 with ⟨p2, r2⟩
    cases r2 with
    | ok y => by_cases h : p.errorCount = p2.errorCount <;> simp [h]
    | throw e => rfl
    | ub w => rfl
  | throw e => rfl
  | ub w => rfl

/-- `parse_cidr()` otherwise. -/
theorem parseCidr_nomask (env : ParseEnv) (inp : Str) (result : List Range) (p : Parser)
    (h : p.config.flags .mask = false) :
    parseCidr env inp result p =
      (match parseAddress env (trimString inp) [] result p with
       | (p1, .ok (_, l)) => (p1, .ok l)
       | (p1, .throw e) => (p1, .throw e)
       | (p1, .ub w) => (p1, .ub w)) := by
  rw [parseCidr, PM.config_bind]
  dsimp only
  rw [if_neg (by simp [h])]
  simp only [PM.bind_def]
  rcases parseAddress env _ _ result p with ⟨p1, r1⟩
  cases r1 <;> rfl

theorem logging_parseCidr (env : ParseEnv) (c : Config) (inp : Str) (result : List Range) :
    Logging c (parseCidr env inp result) := by
  cases hm : c.flags .mask with
  | true =>
    obtain ⟨e1, r1, h1⟩ := logging_parseAddress env c ((splitFirst '/' (trimString inp)).getD (trimString inp, [])).1
      ((splitFirst '/' (trimString inp)).getD (trimString inp, [])).2 []
    cases r1 with
    | ok x =>
      obtain ⟨e2, r2, h2⟩ := logging_maskLoop env c ((splitFirst '/' (trimString inp)).getD (trimString inp, [])).2 x.1 x.2
      cases r2 with
      | ok y =>
        refine ⟨e1 ++ e2, .ok (if e1 ++ e2 = [] then result ++ y else result), fun p hp => ?_⟩
        rw [parseCidr_mask env inp result p (by rw [hp]; exact hm)]
        dsimp only
        rw [h1 p hp]
        dsimp only
        rw [h2 _ (by simpa using hp)]
        dsimp only
        rw [← emitAll_append]
        congr 2
        have : (p.errorCount = (emitAll (e1 ++ e2) p).errorCount) ↔ e1 ++ e2 = [] := by
          simp only [emitAll]
          constructor
          · intro h
            have : (e1 ++ e2).length = 0 := by omega
            exact List.length_eq_zero_iff.1 this
          · intro h
            rw [h]
            simp
        by_cases he : e1 ++ e2 = []
        · rw [if_pos (this.2 he), if_pos he]
        · rw [if_neg (fun h => he (this.1 h)), if_neg he]
      | throw e =>
        refine ⟨e1 ++ e2, .throw e, fun p hp => ?_⟩
        rw [parseCidr_mask env inp result p (by rw [hp]; exact hm)]
        dsimp only
        rw [h1 p hp]
        dsimp only
        rw [h2 _ (by simpa using hp), emitAll_append]
      | ub e =>
        refine ⟨e1 ++ e2, .ub e, fun p hp => ?_⟩
        rw [parseCidr_mask env inp result p (by rw [hp]; exact hm)]
        dsimp only
        rw [h1 p hp]
        dsimp only
        rw [h2 _ (by simpa using hp), emitAll_append]
    | throw e =>
      refine ⟨e1, .throw e, fun p hp => ?_⟩
      rw [parseCidr_mask env inp result p (by rw [hp]; exact hm)]
      dsimp only
      rw [h1 p hp]
    | ub e =>
      refine ⟨e1, .ub e, fun p hp => ?_⟩
      rw [parseCidr_mask env inp result p (by rw [hp]; exact hm)]
      dsimp only
      rw [h1 p hp]
  | false =>
    obtain ⟨e1, r1, h1⟩ := logging_parseAddress env c (trimString inp) [] result
    refine ⟨e1, (match r1 with | .ok x => .ok x.2 | .throw e => .throw e | .ub w => .ub w), fun p hp => ?_⟩
    rw [parseCidr_nomask env inp result p (by rw [hp]; exact hm), h1 p hp]
    cases r1 <;> rfl

theorem logging_parseSingle (env : ParseEnv) (c : Config) (inp : Str) (result : List Range) :
    Logging c (parseSingle env inp result) := by
  unfold parseSingle
  dsimp only
  repeat' (first | exact logging_parseCidr _ _ _ _ | logging_step)

theorem logging_parseEntry (env : ParseEnv) (c : Config) (inp : Str) (result : List Range) :
    Logging c (parseEntry env inp result) := by
  unfold parseEntry
  repeat' (first | exact logging_parseCidr _ _ _ _ | logging_step)

theorem logging_parseList (env : ParseEnv) (c : Config) (fuel : Nat) (rest : Str) (result : List Range) :
    Logging c (parseList env fuel rest result) := by
  induction fuel generalizing rest result with
  | zero => exact logging_pure _ _
  | succ n ih =>
    rw [parseList]
    dsimp only
    refine logging_bind (logging_config c) (fun c' => ?_)
    split
    · exact logging_pure _ _
    · split
      · exact logging_bind (logging_parseEntry _ _ _ _) (fun _ => ih _ _)
      · exact ih _ _

theorem logging_parseUnsorted (env : ParseEnv) (c : Config) (inp : Str) : Logging c (parseUnsorted env inp) := by
  unfold parseUnsorted
  refine logging_bind (logging_config c) (fun c' => ?_)
  split
  · exact logging_parseSingle _ _ _ _
  · exact logging_parseList _ _ _ _ _

theorem logging_parse (env : ParseEnv) (c : Config) (inp : Str) : Logging c (parse env inp) := by
  unfold parse
  exact logging_bind (logging_config c) (fun c' => logging_bind (logging_parseUnsorted _ _ _) (fun _ => logging_lift _ _))

end Parser

end Verif
