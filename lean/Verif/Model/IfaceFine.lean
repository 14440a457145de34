import Verif.Model.Iface

/-!
# The cache of `libaddr/iface.cpp`, one access at a time

`Verif.Cache` runs each critical section in one transition. Here a transition reads or writes at most one of the global variables,
and the mutex is a variable of the system. The two operands of `time(nullptr) + g_cache_ttl` are computed from left to right.
Memory is sequentially consistent. The lists are values: the counter of a shared pointer is not modelled.
-/

namespace Verif

namespace Fine

/-- Where a thread is: what it does next. The lines are those of iface.cpp. -/
inductive Pc (α : Type)
  /-- Outside of the functions. -/
  | idle
  /-- 268: takes the mutex. -/
  | enterGet
  /-- 270: reads `g_cache_timeout` and compares it with the time. -/
  | check
  /-- 271: reads `g_cache_iface` and compares it with null. -/
  | test (now : Int)
  /-- 273: copies `g_cache_iface`. -/
  | copy (now : Int)
  /-- 274: releases the mutex and returns `r`. -/
  | copied (r : Option α)
  /-- 275: writes `g_cache_iface`. -/
  | clear (now : Int)
  /-- 276: releases the mutex. -/
  | cleared
  /-- 280: calls `getifaddrs()`. -/
  | fetching
  /-- 387: takes the mutex. -/
  | fetched (l : α)
  /-- 389: reads the time. -/
  | storeTime (l : α)
  /-- 389: reads `g_cache_ttl`. -/
  | storeTtl (l : α) (now : Int)
  /-- 389: writes `g_cache_timeout`. -/
  | storeTimeout (l : α) (timeout : Int)
  /-- 390: swaps `g_cache_iface` with the list. -/
  | storeList (l : α)
  /-- 391: copies `g_cache_iface`. -/
  | storeCopy
  /-- 392: releases the mutex and returns `r`. -/
  | stored (r : Option α)
  /-- 404: takes the mutex. -/
  | enterReset
  /-- 406: writes `g_cache_timeout`. -/
  | resetTimeout
  /-- 407: writes `g_cache_iface`. -/
  | resetList
  /-- 408: releases the mutex. -/
  | wasReset
  /-- 428: writes `g_cache_ttl`. -/
  | setTtl (seconds : Nat)
  /-- Goes back to the caller. -/
  | leaving (o : Cache.Out α)

/-- The variables, the owner of the mutex and the threads. -/
structure State (α : Type) where
  globals : Cache.Globals α
  owner : Option Nat
  pc : Nat → Pc α

/-- What a thread calls. -/
inductive Call
  /-- `iface::get_local_addresses()`. -/
  | get
  /-- `iface::reset_local_addresses_cache()`. -/
  | reset
  /-- `iface::set_local_addresses_cache_ttl()`. -/
  | setTtl (seconds : Nat)

/-- What happens next: the thread `t` calls a function, the system answers to it, or it goes on. -/
inductive Action (α : Type)
  | call (t : Nat) (c : Call)
  | fetch (t : Nat) (now : Int) (answer : Cache.Answer α)
  | step (t : Nat) (now : Int)

/-- The thread which moves. -/
def Action.thread {α : Type} : Action α → Nat
  | .call t _ => t
  | .fetch t _ _ => t
  | .step t _ => t

/-- A transition which was made. -/
structure Event (α : Type) where
  action : Action α
  /-- For the proofs only: the transition of `Verif.Cache` which takes effect here. -/
  commit : Option (Cache.Action α × Cache.Out α)
  /-- How the call ended, if the thread went back to its caller. -/
  ret : Option (Cache.Out α)

/-- The initial values, iface.cpp:93-113, and a free mutex. -/
def init (α : Type) : State α :=
  { globals := { timeout := 0, list := none, ttl := 300 }, owner := none, pc := fun _ => .idle }

/-- The thread `t` moved. -/
def State.move {α : Type} (s : State α) (t : Nat) (p : Pc α) : State α :=
  { s with pc := fun u => if u = t then p else s.pc u }

/-- The thread `t` takes the mutex, if it is free. -/
def State.lock {α : Type} (s : State α) (t : Nat) (p : Pc α) : Option (State α) :=
  match s.owner with
  | none => some ({ s with owner := some t }.move t p)
  | some _ => none

/-- The thread `t` releases the mutex. -/
def State.unlock {α : Type} (s : State α) (t : Nat) (p : Pc α) : State α := { s with owner := none }.move t p

/-- The next access of the thread `t`. `none` when it waits. `empty` is the empty list of iface.cpp:275. -/
def go {α : Type} (empty : α) (s : State α) (t : Nat) (now : Int) :
    Option (State α × Option (Cache.Action α × Cache.Out α) × Option (Cache.Out α)) :=
  let g := s.globals
  match s.pc t with
  | .idle => none
  | .fetching => none
  -- iface.cpp:267-276
  | .enterGet => (s.lock t .check).map fun s => (s, none, none)
  | .check => some (if g.timeout ≥ now then s.move t (.test now) else s.move t (.clear now), none, none)
  | .test n => some (if g.list.isSome then s.move t (.copy n) else s.move t (.clear n), none, none)
  | .copy n => some (s.move t (.copied g.list), some (.enter t n, .returns g.list), none)
  | .copied r => some (s.unlock t (.leaving (.returns r)), none, none)
  | .clear n => some ({ s with globals := { g with list := some empty } }.move t .cleared, some (.enter t n, .nothing), none)
  | .cleared => some (s.unlock t .fetching, none, none)
  -- iface.cpp:386-392
  | .fetched l => (s.lock t (.storeTime l)).map fun s => (s, none, none)
  | .storeTime l => some (s.move t (.storeTtl l now), none, none)
  | .storeTtl l n => some (s.move t (.storeTimeout l (n + g.ttl)), some (.store t n, .returns (some l)), none)
  | .storeTimeout l n => some ({ s with globals := { g with timeout := n } }.move t (.storeList l), none, none)
  | .storeList l => some ({ s with globals := { g with list := some l } }.move t .storeCopy, none, none)
  | .storeCopy => some (s.move t (.stored g.list), none, none)
  | .stored r => some (s.unlock t (.leaving (.returns r)), none, none)
  -- iface.cpp:402-408
  | .enterReset => (s.lock t .resetTimeout).map fun s => (s, none, none)
  | .resetTimeout => some ({ s with globals := { g with timeout := 0 } }.move t .resetList, some (.reset now, .nothing), none)
  | .resetList => some ({ s with globals := { g with list := none } }.move t .wasReset, none, none)
  | .wasReset => some (s.unlock t (.leaving .nothing), none, none)
  -- iface.cpp:426-429
  | .setTtl n => some ({ s with globals := { g with ttl := n } }.move t (.leaving .nothing), some (.setTtl now n, .nothing), none)
  | .leaving o => some (s.move t .idle, none, some o)

/-- One transition; `none` when it is not possible. -/
def step {α : Type} (empty : α) (s : State α) (a : Action α) :
    Option (State α × Option (Cache.Action α × Cache.Out α) × Option (Cache.Out α)) :=
  match a with
  | .call t c =>
    match s.pc t with
    | .idle =>
      match c with
      | .get => some (s.move t .enterGet, none, none)
      | .reset => some (s.move t .enterReset, none, none)
      | .setTtl n => some (s.move t (.setTtl n), none, none)
    | _ => none
  -- iface.cpp:280-384
  | .fetch t now answer =>
    match s.pc t with
    | .fetching =>
      match answer with
      | .list l => some (s.move t (.fetched l), some (.fetch t now answer, .nothing), none)
      | .fails => some (s.move t (.leaving (.returns none)), some (.fetch t now answer, .returns none), none)
      | .throws => some (s.move t (.leaving .throws), some (.fetch t now answer, .throws), none)
    | _ => none
  | .step t now => go empty s t now

/-- The executions: the events, the last one first, and the state after them. -/
inductive Exec {α : Type} (empty : α) : List (Event α) → State α → Prop
  | start : Exec empty [] (init α)
  | next {h : List (Event α)} {s s' : State α} {a : Action α} {c : Option (Cache.Action α × Cache.Out α)}
      {r : Option (Cache.Out α)} :
      Exec empty h s → step empty s a = some (s', c, r) → Exec empty (⟨a, c, r⟩ :: h) s'

/-- The global variables which the threads share. -/
inductive Var
  | timeout
  | list
  | ttl
  deriving DecidableEq

/-- The access which a thread makes next: the variable, and whether it is written. -/
def next {α : Type} : Pc α → Option (Var × Bool)
  | .check => some (.timeout, false)
  | .test _ => some (.list, false)
  | .copy _ => some (.list, false)
  | .clear _ => some (.list, true)
  | .storeTtl _ _ => some (.ttl, false)
  | .storeTimeout _ _ => some (.timeout, true)
  | .storeList _ => some (.list, true)
  | .storeCopy => some (.list, false)
  | .resetTimeout => some (.timeout, true)
  | .resetList => some (.list, true)
  | .setTtl _ => some (.ttl, true)
  | _ => none

end Fine

end Verif
