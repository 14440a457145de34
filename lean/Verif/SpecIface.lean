import Verif.Model.Iface

/-!
# Vocabulary for the cache of the interfaces

A history is the list of the events, the last one first. An event is a transition and what it returned.
-/

namespace Verif.Spec

open Cache

variable {α : Type}

/-- An event. -/
abbrev Event (α : Type) := Action α × Out α

/-- When an event happened. -/
def timeOf : Event α → Int
  | (.enter _ now, _) => now
  | (.fetch _ now _, _) => now
  | (.store _ now, _) => now
  | (.reset now, _) => now
  | (.setTtl now _, _) => now

/-- An event of `get_local_addresses()` called by the thread `t`. -/
def IsOf (t : Nat) : Event α → Prop
  | (.enter u _, _) => u = t
  | (.fetch u _ _, _) => u = t
  | (.store u _, _) => u = t
  | (.reset _, _) => False
  | (.setTtl _ _, _) => False

/-- The second critical section of `get_local_addresses()`. -/
def IsStore : Event α → Prop
  | (.store _ _, _) => True
  | _ => False

/-- A reset of the cache. -/
def IsReset : Event α → Prop
  | (.reset _, _) => True
  | _ => False

/-- The clock never goes back and is after 1970-01-01 00:00:00. -/
def Clock (h : List (Event α)) : Prop :=
  h.Pairwise (fun later earlier => timeOf earlier ≤ timeOf later) ∧ ∀ e ∈ h, 0 < timeOf e

/-- The TTL in force after a history: the last one set, five minutes at first. -/
def ttlOf : List (Event α) → Nat
  | [] => 300
  | (.setTtl _ seconds, _) :: _ => seconds
  | _ :: h => ttlOf h

/-- In this history, the thread `t` got the list `l` from the system at the time `f`, in the call which it is still in. -/
def HoldsList (h : List (Event α)) (t : Nat) (l : α) (f : Int) : Prop :=
  ∃ h1 h2, h = h1 ++ (.fetch t f (.list l), .nothing) :: h2 ∧ ∀ e ∈ h1, ¬ IsOf t e

/-- The last thing which happened to the cache is that the thread `t`, at the time `s`, put in it the list `l` which it had
got from the system at the time `f`, when the TTL was `ttl`. -/
def Stored (h : List (Event α)) (t : Nat) (l : α) (f s : Int) (ttl : Nat) : Prop :=
  ∃ h1 h2, h = h1 ++ (.store t s, .returns (some l)) :: h2 ∧ (∀ e ∈ h1, ¬ IsStore e ∧ ¬ IsReset e) ∧ HoldsList h2 t l f ∧
    ttl = ttlOf h2

end Verif.Spec
