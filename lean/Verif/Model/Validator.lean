import Verif.Model.Parser

/-!
# Model of `libaddr/validator_address.cpp`

A validator is its parser. The messages sent to the log are counted, their text is left out.
-/

namespace Verif

namespace Validator

/-- What the validator uses outside of libaddr: the functions of the parser, those used to print an address, and
`advgetopt::split_string(s, result, {" "})`. -/
structure Env where
  parse : ParseEnv
  db : NetDb
  split : Str → List Str

/-- One value of the option `address`, validator_address.cpp:228-296. The number of messages logged is returned. -/
def addressValue (values : List Str) (v : Str) : PM Nat := do
  if v = "commas".toList then
    Parser.setAllow 2 true
    return 0
  else if v = "lookup".toList then
    Parser.setAllow 5 true
    return 0
  else if v = "newlines".toList then
    Parser.setAllow 4 true
    return 0
  else if v = "range".toList then
    Parser.setAllow 6 true
    return 0
  else if v = "required".toList then
    Parser.setAllow 1 true
    return 0
  else if v = "spaces".toList then
    Parser.setAllow 3 true
    return 0
  else if v = "yes".toList then
    if "required".toList ∈ values then return 1 else return 0
  else return 1

/-- The loop over the values of the option `address`, validator_address.cpp:226-297. -/
def addressLoop (values : List Str) : List Str → PM Nat
  | [] => pure 0
  | v :: l => do
    let n ← addressValue values v
    let m ← addressLoop values l
    return n + m

/-- The option `address`, validator_address.cpp:201-300. -/
def addressOption (values : List Str) : PM Nat := do
  Parser.setAllow 0 false
  Parser.setAllow 1 false
  Parser.setAllow 2 false
  Parser.setAllow 3 false
  Parser.setAllow 4 false
  Parser.setAllow 6 false
  Parser.setAllow 5 false
  if "no".toList ∈ values then
    if values.length ≠ 1 then return 1 else return 0
  else
    Parser.setAllow 0 true
    addressLoop values values

/-- The option `comment`, validator_address.cpp:304-340. -/
def commentOption (values : List Str) : PM Nat := do
  Parser.setAllow 11 false
  Parser.setAllow 12 false
  match values with
  | [v] =>
    if v = "yes".toList ∨ v = "all".toList then
      Parser.setAllow 11 true
      Parser.setAllow 12 true
      return 0
    else if v = "hash".toList then
      Parser.setAllow 11 true
      return 0
    else if v = "semicolon".toList then
      Parser.setAllow 12 true
      return 0
    else if v ≠ "no".toList then return 1
    else return 0
  | _ => return 1

/-- The defaults taken from an address, validator_address.cpp:378-407. -/
def useDefaults (env : Env) (a : Addr) : PM Unit := do
  let (a, t) := a.getNetworkType
  if t ≠ .any then
    let text ← PM.lift (a.toIpv4or6String env.db STRING_IP_BRACKET_ADDRESS)
    Parser.setDefaultAddress text
  if a.getPort ≠ 0 then Parser.setDefaultPortStr env.parse a.getStrPort
  let mask := a.getMaskSize
  if mask ≠ -1 ∧ mask ≠ 128 then
    if a.isIpv4 then Parser.setDefaultMask env.parse (intStr mask)
    else Parser.setDefaultMask env.parse ('[' :: intStr mask ++ [']'])

/-- The parser of one value of the option `default`, validator_address.cpp:366-368. -/
def defaultsParser : Parser := (Parser.setProtocol IPPROTO_TCP (Parser.setAllow 9 true Parser.create).1).1

/-- One value of the option `default`, validator_address.cpp:366-418. -/
def defaultValue (env : Env) (param : Str) : PM Nat := do
  match ← PM.lift (Parser.parse env.parse param defaultsParser).2 with
  | [r] =>
    if r.hasFrom && !r.hasTo then
      useDefaults env r.lo
      return 0
    else return 1
  | _ => return 1

/-- The loop over the values of the option `default`, validator_address.cpp:364-419. -/
def defaultLoop (env : Env) : List Str → PM Nat
  | [] => pure 0
  | v :: l => do
    let n ← defaultValue env v
    let m ← defaultLoop env l
    return n + m

/-- The option `default`, validator_address.cpp:344-422. -/
def defaultOption (env : Env) (values : List Str) : PM Nat := do
  if values = ["yes".toList] then
    Parser.setDefaultAddress []
    Parser.setDefaultPortStr env.parse []
    Parser.setDefaultMask env.parse []
    return 0
  else defaultLoop env values

/-- The option `mask`, validator_address.cpp:426-457. -/
def maskOption (values : List Str) : PM Nat := do
  Parser.setAllow 9 false
  Parser.setAllow 10 false
  match values with
  | [v] =>
    if v ≠ "no".toList then
      Parser.setAllow 9 true
      if v = "address".toList then
        Parser.setAllow 10 true
        return 0
      else if v ≠ "yes".toList then return 1
      else return 0
    else return 0
  | _ => return 1

/-- The option `port`, validator_address.cpp:461-495. -/
def portOption (values : List Str) : PM Nat := do
  Parser.setAllow 7 false
  Parser.setAllow 8 false
  match values with
  | [v] =>
    if v ≠ "no".toList then
      Parser.setAllow 7 true
      if v ≠ "yes".toList then
        if v = "required".toList then
          Parser.setAllow 8 true
          return 0
        else return 1
      else return 0
    else return 0
  | _ => return 1

/-- The name and the values of an option, validator_address.cpp:178-194. -/
def nameAndValues (env : Env) (p : Str) : Str × List Str :=
  match Parser.splitFirst '=' p with
  | none => (p, ["yes".toList])
  | some (name, rest) => (name, if env.split rest = [] then ["yes".toList] else env.split rest)

/-- One element of the list, validator_address.cpp:169-505. -/
def option (env : Env) (p : Str) : PM Nat :=
  if p = [] then pure 0
  else
    let (name, values) := nameAndValues env p
    if name = "address".toList then addressOption values
    else if name = "comment".toList then commentOption values
    else if name = "default".toList ∨ name = "defaults".toList then defaultOption env values
    else if name = "mask".toList then maskOption values
    else if name = "port".toList then portOption values
    else pure 1

/-- The loop of the constructor, validator_address.cpp:167-506. -/
def options (env : Env) : List Str → PM Nat
  | [] => pure 0
  | p :: l => do
    let n ← option env p
    let m ← options env l
    return n + m

/-- `validator_address::validator_address()`, validator_address.cpp:165-507: the parser of the validator and the number of
messages logged. -/
def create (env : Env) (data : List Str) : Res (Parser × Nat) :=
  match options env data Parser.create with
  | (p, .ok n) => .ok (p, n)
  | (_, .throw e) => .throw e
  | (_, .ub w) => .ub w

/-- `validator_address::validate()`, validator_address.cpp:531-542: the value returned, and the text given to `set_error()` if it
is called. -/
def validate (env : ParseEnv) (value : Str) : PM (Bool × Option Str) := do
  Parser.clearErrors
  let _ ← Parser.parse env value
  fun p => (p, .ok (if Parser.hasErrors p then (false, some (Parser.errorMessages p)) else (true, none)))

/-- Several values one after the other, each with its environment: the parser which is left. -/
def validateAll : List (ParseEnv × Str) → Parser → Parser
  | [], p => p
  | (env, value) :: l, p => validateAll l (validate env value p).1

end Validator

end Verif
