import Verif.Model.Addr

/-!
# An `addr` object which several threads share, one access at a time

`Verif.Addr.getNetworkType` runs `addr::get_network_type()` in one transition. The function is `const`, but it writes the member
`f_private_network`, which is `mutable`. Here a transition reads or writes this member at most once, and any number of threads,
which are numbers, ask questions about the same object, which nobody changes otherwise. The other members are only read: they
are parameters. Memory is sequentially consistent.
-/

namespace Verif

namespace Shared

/-- The functions which read `f_private_network`. -/
inductive Question
  /-- `addr::get_network_type()`. -/
  | type
  /-- `addr::get_network_type_string()`. -/
  | text
  /-- `addr::is_valid()`. -/
  | valid
  /-- `addr::is_lan()`. -/
  | lan (includeAll : Bool)
  /-- `addr::is_wan()`. -/
  | wan (includeDefault : Bool)
  /-- The copy constructor, which copies each member, addr.h:110-258. -/
  | copy

/-- What they return. -/
inductive Reply
  | type (t : NetType)
  | text (s : String)
  | bool (b : Bool)
  | copy (a : Addr)

/-- What the function returns about an object. -/
def Question.answer : Question → Addr → Reply
  | .type, a => .type a.getNetworkType.2
  | .text, a => .text a.getNetworkTypeString
  | .valid, a => .bool a.isValid
  | .lan b, a => .bool (a.isLan b)
  | .wan b, a => .bool (a.isWan b)
  | .copy, a => .copy a

/-- Where a thread is: what it does next. The lines are those of addr.cpp. -/
inductive Pc
  /-- Outside of the functions. -/
  | idle
  /-- 1597: reads `f_private_network` and compares it with `NETWORK_TYPE_UNDEFINED`. -/
  | test (q : Question)
  /-- 1599: writes `NETWORK_TYPE_UNKNOWN`. -/
  | mark (q : Question)
  /-- 1601-1697: writes the type, unless it is the one which was written already. -/
  | store (q : Question)
  /-- 1700: reads `f_private_network`, as the copy constructor does. -/
  | read (q : Question)
  /-- 1034-1044, 1074-1099, 1121-1134 and 1716-1746: the caller makes its answer out of the value. -/
  | leaving (q : Question) (t : NetType)

/-- The member which changes and the threads. -/
structure State where
  cache : NetType
  pc : Nat → Pc

/-- What happens next: the thread `t` calls a function, or it goes on. -/
inductive Action
  | call (t : Nat) (q : Question)
  | step (t : Nat)

/-- The thread which moves. -/
def Action.thread : Action → Nat
  | .call t _ => t
  | .step t => t

/-- A call of the thread ended with this reply. -/
structure Event where
  thread : Nat
  question : Question
  reply : Reply

/-- The object before it is shared. -/
def init (a : Addr) : State := { cache := a.privateNetwork, pc := fun _ => .idle }

/-- The thread `t` moved. -/
def State.move (s : State) (t : Nat) (p : Pc) : State := { s with pc := fun u => if u = t then p else s.pc u }

/-- One transition; `none` when it is not possible. The members of `a` other than `f_private_network` are those of the object.
addr.cpp:1595-1701. -/
def step (a : Addr) (s : State) : Action → Option (State × Option Event)
  | .call t q =>
    match s.pc t with
    | .idle =>
      match q with
      | .copy => some (s.move t (.read .copy), none)
      | q => some (s.move t (.test q), none)
    | _ => none
  | .step t =>
    match s.pc t with
    | .idle => none
    | .test q => some (if s.cache = .undefined then s.move t (.mark q) else s.move t (.read q), none)
    | .mark q => some ({ s with cache := .unknown }.move t (.store q), none)
    | .store q =>
      let type := Addr.classify a.bytes a.isIpv4
      some ((if type = .unknown then s else { s with cache := type }).move t (.read q), none)
    | .read q => some (s.move t (.leaving q s.cache), none)
    | .leaving q v => some (s.move t .idle, some ⟨t, q, q.answer { a with privateNetwork := v }⟩)

/-- The executions: the events, the last one first, and the state after them. -/
inductive Exec (a : Addr) : List Event → State → Prop
  | start : Exec a [] (init a)
  | next {h : List Event} {s s' : State} {x : Action} {e : Option Event} :
      Exec a h s → step a s x = some (s', e) → Exec a (e.toList ++ h) s'

/-- The access which a thread makes next to `f_private_network`: whether it is written. -/
def access (a : Addr) : Pc → Option Bool
  | .test _ => some false
  | .mark _ => some true
  | .store _ => if Addr.classify a.bytes a.isIpv4 = .unknown then none else some true
  | .read _ => some false
  | _ => none

end Shared

end Verif
