import Verif.Model.IfaceFine

/-!
# Vocabulary for the calls of the threads which use the cache of the interfaces

The events of a history are numbered in the order in which they happened. What is seen from outside is which function a thread calls,
when it returns and with which value, what the system answers, and when.
-/

namespace Verif.Spec

open Fine

variable {α : Type}

/-- The event number `i`. -/
def At (h : List (Fine.Event α)) (i : Nat) (e : Fine.Event α) : Prop := h.reverse[i]? = some e

/-- The thread `t` calls the function `c` at `i` and this call ends at `j` with `o`. -/
structure CallOf (h : List (Fine.Event α)) (t : Nat) (c : Call) (i j : Nat) (o : Cache.Out α) : Prop where
  order : i < j
  begins : ∃ e, At h i e ∧ e.action = .call t c
  ends : ∃ e, At h j e ∧ e.action.thread = t ∧ e.ret = some o
  between : ∀ q e, i < q → q < j → At h q e → e.action.thread = t → e.ret = none

/-- The thread `t` does not return from `i` to `j`: it is still in the call in which it was. -/
def Busy (h : List (Fine.Event α)) (t i j : Nat) : Prop := ∀ q e, i < q → q < j → At h q e → e.action.thread = t → e.ret = none

/-- The system answers the list `l` to the thread `t`, at the time `f`. -/
def Answered (h : List (Fine.Event α)) (t : Nat) (l : α) (f : Int) (i : Nat) : Prop :=
  ∃ e, At h i e ∧ e.action = .fetch t f (.list l)

/-- The thread `t` does something at the time `n`. -/
def ActsAt (h : List (Fine.Event α)) (t : Nat) (n : Int) (i : Nat) : Prop := ∃ e, At h i e ∧ e.action = .step t n

/-- The TTL is the initial one, or a thread asked for it before the event number `i`. -/
def TtlGiven (h : List (Fine.Event α)) (ttl i : Nat) : Prop :=
  ttl = 300 ∨ ∃ j e t, j < i ∧ At h j e ∧ e.action = .call t (.setTtl ttl)

end Verif.Spec
