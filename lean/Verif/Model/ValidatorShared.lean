import Verif.Model.Validator
import Verif.Lemmas.Parser

/-!
# A validator which several threads share

`Verif.Validator.validate` runs `validator_address::validate()` at once. The function is `const`, but it writes the errors of
the member `f_parser`, which is `mutable`. Here any number of threads, which are numbers, validate values with the same
validator. A transition makes one call of a function which reads or writes the errors: `clear_errors()`, `emit_error()`,
`has_errors()` or `error_messages()`, as if each of them were atomic. `addr_parser::parse()` reads the configuration, which
nobody changes, and emits its errors one after the other.
-/

namespace Verif

namespace SharedValidator

/-- Where a thread is: what it does next. The lines are those of validator_address.cpp. -/
inductive Pc
  /-- Outside of the function. -/
  | idle
  /-- 533: calls `clear_errors()`. -/
  | clear (env : ParseEnv) (value : Str)
  /-- 534: calls `parse()`. -/
  | parse (env : ParseEnv) (value : Str)
  /-- 534: within `parse()`, the errors are still to be emitted, and it ends with `r`. -/
  | emit (env : ParseEnv) (value : Str) (errs : List Str) (r : Res (List Range))
  /-- 535: calls `has_errors()`. -/
  | test (env : ParseEnv) (value : Str)
  /-- 537: calls `error_messages()`. -/
  | messages (env : ParseEnv) (value : Str)

/-- The parser of the validator and the threads. -/
structure State where
  parser : Parser
  pc : Nat → Pc

/-- A call of the thread ended. -/
structure Event where
  thread : Nat
  env : ParseEnv
  value : Str
  /-- The value returned, and the text given to `set_error()` if it is called. -/
  result : Res (Bool × Option Str)

/-- The validator before it is shared. -/
def init (v : Parser) : State := { parser := v, pc := fun _ => .idle }

/-- The thread `t` moved. -/
def State.move (s : State) (t : Nat) (p : Pc) : State := { s with pc := fun u => if u = t then p else s.pc u }

/-- The transitions of the thread `t`, validator_address.cpp:531-542 and addr_parser.cpp:866-955. -/
inductive Step (t : Nat) (s : State) : State → Option Event → Prop
  | call (env : ParseEnv) (value : Str) : s.pc t = .idle → Step t s (s.move t (.clear env value)) none
  | clear (env : ParseEnv) (value : Str) : s.pc t = .clear env value →
      Step t s ({ s with parser := (Parser.clearErrors s.parser).1 }.move t (.parse env value)) none
  | parse (env : ParseEnv) (value : Str) (errs : List Str) (r : Res (List Range)) : s.pc t = .parse env value →
      Parser.Logs s.parser.config (Parser.parse env value) errs r → Step t s (s.move t (.emit env value errs r)) none
  | emit (env : ParseEnv) (value : Str) (e : Str) (errs : List Str) (r : Res (List Range)) : s.pc t = .emit env value (e :: errs) r →
      Step t s ({ s with parser := (Parser.emitError e s.parser).1 }.move t (.emit env value errs r)) none
  | parsed (env : ParseEnv) (value : Str) (l : List Range) : s.pc t = .emit env value [] (.ok l) →
      Step t s (s.move t (.test env value)) none
  | throws (env : ParseEnv) (value : Str) (e : Exc) : s.pc t = .emit env value [] (.throw e) →
      Step t s (s.move t .idle) (some ⟨t, env, value, .throw e⟩)
  | ub (env : ParseEnv) (value : Str) (w : UB) : s.pc t = .emit env value [] (.ub w) →
      Step t s (s.move t .idle) (some ⟨t, env, value, .ub w⟩)
  | valid (env : ParseEnv) (value : Str) : s.pc t = .test env value → s.parser.hasErrors = false →
      Step t s (s.move t .idle) (some ⟨t, env, value, .ok (true, none)⟩)
  | invalid (env : ParseEnv) (value : Str) : s.pc t = .test env value → s.parser.hasErrors = true →
      Step t s (s.move t (.messages env value)) none
  | messages (env : ParseEnv) (value : Str) : s.pc t = .messages env value →
      Step t s (s.move t .idle) (some ⟨t, env, value, .ok (false, some s.parser.errorMessages)⟩)

/-- The executions: the events, the last one first, and the state after them. -/
inductive Exec (v : Parser) : List Event → State → Prop
  | start : Exec v [] (init v)
  | next {h : List Event} {s s' : State} {t : Nat} {e : Option Event} :
      Exec v h s → Step t s s' e → Exec v (e.toList ++ h) s'

/-- The access which a thread makes next to the errors: whether they are written. -/
def access : Pc → Option Bool
  | .clear _ _ => some true
  | .emit _ _ (_ :: _) _ => some true
  | .test _ _ => some false
  | .messages _ _ => some false
  | _ => none

end SharedValidator

end Verif
