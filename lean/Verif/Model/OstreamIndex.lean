import Verif.Basic

/-!
# Model of `get_ostream_index()`, `libaddr/addr.cpp`, one access at a time

Any number of threads, which are numbers, call the function. A transition reads or writes at most one of the global variables.
`std::ios_base::xalloc()` gives the next number, and anyone may call it (`Action.other`). Memory is sequentially consistent.
-/

namespace Verif

namespace Index

/-- Where a thread is: what it does next. The lines are those of addr.cpp. -/
inductive Pc
  /-- Outside of the function. -/
  | idle
  /-- 3006: takes the mutex. -/
  | enter
  /-- 3008: reads `g_ostream_index_allocated`. -/
  | test
  /-- 3010: writes `g_ostream_index_allocated`. -/
  | mark
  /-- 3011: calls `xalloc()`. -/
  | alloc
  /-- 3011: writes `g_ostream_index`. -/
  | write (n : Nat)
  /-- 3014: reads `g_ostream_index`. -/
  | copy
  /-- 3015: releases the mutex and returns `n`. -/
  | copied (n : Nat)

/-- The variables, addr.cpp:277 and 295, the number which `xalloc()` gives next, the owner of the mutex and the threads. -/
structure State where
  allocated : Bool
  index : Nat
  next : Nat
  owner : Option Nat
  pc : Nat → Pc

/-- What happens next: a thread calls the function, it goes on, or some other part of the program calls `xalloc()`. -/
inductive Action
  | call (t : Nat)
  | step (t : Nat)
  | other

/-- What is seen. -/
inductive Event
  /-- A call returned a number. -/
  | returned (t n : Nat)
  /-- The function got a number from `xalloc()`. -/
  | got (n : Nat)
  /-- Another part of the program got a number from `xalloc()`. -/
  | other (n : Nat)

/-- The initial values, addr.cpp:277 and 295; `first` is the first number which `xalloc()` gives. -/
def init (first : Nat) : State := { allocated := false, index := 0, next := first, owner := none, pc := fun _ => .idle }

/-- The thread `t` moved. -/
def State.move (s : State) (t : Nat) (p : Pc) : State := { s with pc := fun u => if u = t then p else s.pc u }

/-- One transition; `none` when it is not possible. addr.cpp:3004-3015. -/
def step (s : State) : Action → Option (State × Option Event)
  | .call t =>
    match s.pc t with
    | .idle => some (s.move t .enter, none)
    | _ => none
  | .other => some ({ s with next := s.next + 1 }, some (.other s.next))
  | .step t =>
    match s.pc t with
    | .idle => none
    | .enter =>
      match s.owner with
      | none => some ({ s with owner := some t }.move t .test, none)
      | some _ => none
    | .test => some (if s.allocated then s.move t .copy else s.move t .mark, none)
    | .mark => some ({ s with allocated := true }.move t .alloc, none)
    | .alloc => some ({ s with next := s.next + 1 }.move t (.write s.next), some (.got s.next))
    | .write n => some ({ s with index := n }.move t .copy, none)
    | .copy => some (s.move t (.copied s.index), none)
    | .copied n => some ({ s with owner := none }.move t .idle, some (.returned t n))

/-- The executions: the events, the last one first, and the state after them. -/
inductive Exec (first : Nat) : List Event → State → Prop
  | start : Exec first [] (init first)
  | silent {h : List Event} {s s' : State} {a : Action} : Exec first h s → step s a = some (s', none) → Exec first h s'
  | seen {h : List Event} {s s' : State} {a : Action} {e : Event} :
      Exec first h s → step s a = some (s', some e) → Exec first (e :: h) s'

/-- The global variables of the library. -/
inductive Var
  | allocated
  | index
  deriving DecidableEq

/-- The access which a thread makes next: the variable, and whether it is written. -/
def access : Pc → Option (Var × Bool)
  | .test => some (.allocated, false)
  | .mark => some (.allocated, true)
  | .write _ => some (.index, true)
  | .copy => some (.index, false)
  | _ => none

end Index

end Verif
