import Verif.Model.Iface

/-!
# The vectors of `libaddr/iface.cpp`

`get_local_addresses()` returns a shared pointer to the vector which is in the cache: all the callers get the same vector. Here the
vectors are cells of a heap, the cache and the threads hold their addresses, and the vector of a new list grows one interface
at a time. A critical section is one transition (see C107 for why this loses nothing). A cell is never given twice: a shared pointer
which someone still holds keeps its vector alive. The callers only read the vectors.
-/

namespace Verif

namespace Heap

/-- A vector of interfaces. -/
structure Cell where
  items : List Iface
  /-- For the proofs only: the answer of `getifaddrs()` it is made of, nothing for the empty vector of iface.cpp:275. -/
  source : Option (List IfAddrs)

/-- Where a thread is within `get_local_addresses()`. -/
inductive Pc
  /-- Outside of the function. -/
  | idle
  /-- After the first critical section, before `getifaddrs()`. -/
  | fetching
  /-- In the loop: the new vector and the entries which remain. -/
  | building (p : Nat) (rest : List IfAddrs)
  /-- After the loop. -/
  | built (p : Nat)

/-- The global variables of iface.cpp:93-113, the heap and the threads. -/
structure State where
  timeout : Int
  list : Option Nat
  ttl : Nat
  heap : Nat → Cell
  /-- The next cell to give. -/
  fresh : Nat
  pc : Nat → Pc

/-- The transitions, with the thread and the time. -/
inductive Action
  | enter (t : Nat) (now : Int)
  /-- `getifaddrs()` answers a list or fails. -/
  | answer (t : Nat) (now : Int) (es : Option (List IfAddrs))
  /-- One turn of the loop. -/
  | turn (t : Nat) (now : Int)
  /-- The end of the loop. -/
  | finish (t : Nat) (now : Int)
  | store (t : Nat) (now : Int)
  | reset (now : Int)
  | setTtl (now : Int) (seconds : Nat)

/-- The coarse model, for lists which are identified by the answer they are made of. -/
abbrev Commit := Cache.Action (Option (List IfAddrs)) × Cache.Out (Option (List IfAddrs))

/-- A transition which was made. -/
structure Event where
  action : Action
  /-- For the proofs only: the transition of `Verif.Cache` which takes effect here. -/
  commit : Option Commit
  /-- What the call returned, if it is at its end. -/
  out : Cache.Out Nat

/-- The initial values, iface.cpp:93-113. -/
def init : State := { timeout := 0, list := none, ttl := 300, heap := fun _ => ⟨[], none⟩, fresh := 0, pc := fun _ => .idle }

/-- The thread `t` moved. -/
def State.move (s : State) (t : Nat) (p : Pc) : State := { s with pc := fun u => if u = t then p else s.pc u }

/-- A new vector. -/
def State.alloc (s : State) (c : Cell) : State :=
  { s with heap := fun q => if q = s.fresh then c else s.heap q, fresh := s.fresh + 1 }

/-- `push_back()` on the vector `p`. -/
def State.push (s : State) (p : Nat) (i : Iface) : State :=
  { s with heap := fun q => if q = p then { s.heap q with items := (s.heap q).items ++ [i] } else s.heap q }

/-- The first critical section does not find a list, iface.cpp:275. -/
def miss (s : State) (t : Nat) : State := { s.alloc ⟨[], none⟩ with list := some s.fresh }.move t .fetching

/-- One transition; `none` when the thread is elsewhere. -/
def step (s : State) : Action → Option (State × Option Commit × Cache.Out Nat)
  -- iface.cpp:267-276
  | .enter t now =>
    match s.pc t with
    | .idle =>
      match s.list with
      | some p =>
        if s.timeout ≥ now then some (s, some (.enter t now, .returns (some (s.heap p).source)), .returns (some p))
        else some (miss s t, some (.enter t now, .nothing), .nothing)
      | none => some (miss s t, some (.enter t now, .nothing), .nothing)
    | _ => none
  -- iface.cpp:280-289
  | .answer t now es =>
    match s.pc t with
    | .fetching =>
      match es with
      | none => some (s.move t .idle, some (.fetch t now .fails, .returns none), .returns none)
      | some es => some ((s.alloc ⟨[], some es⟩).move t (.building s.fresh es), none, .nothing)
    | _ => none
  -- iface.cpp:290-384
  | .turn t now =>
    match s.pc t with
    | .building p (e :: rest) =>
      match Iface.ofEntry e with
      | .ok (some i) => some ((s.push p i).move t (.building p rest), none, .nothing)
      | .ok none => some (s.move t (.building p rest), none, .nothing)
      | .throw _ => some (s.move t .idle, some (.fetch t now .throws, .throws), .throws)
      | .ub _ => none
    | _ => none
  | .finish t now =>
    match s.pc t with
    | .building p [] => some (s.move t (.built p), some (.fetch t now (.list (s.heap p).source), .nothing), .nothing)
    | _ => none
  -- iface.cpp:386-392
  | .store t now =>
    match s.pc t with
    | .built p =>
      some ({ s with timeout := now + s.ttl, list := some p }.move t .idle,
        some (.store t now, .returns (some (s.heap p).source)), .returns (some p))
    | _ => none
  -- iface.cpp:402-408
  | .reset now => some ({ s with timeout := 0, list := none }, some (.reset now, .nothing), .nothing)
  -- iface.cpp:426-429
  | .setTtl now seconds => some ({ s with ttl := seconds }, some (.setTtl now seconds, .nothing), .nothing)

/-- The executions: the events, the last one first, and the state after them. -/
inductive Exec : List Event → State → Prop
  | start : Exec [] init
  | next {h : List Event} {s s' : State} {a : Action} {c : Option Commit} {o : Cache.Out Nat} :
      Exec h s → step s a = some (s', c, o) → Exec (⟨a, c, o⟩ :: h) s'

end Heap

end Verif
