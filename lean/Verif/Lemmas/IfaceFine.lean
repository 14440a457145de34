import Verif.Model.IfaceFine

/-!
# Lemmas about the fine model of the cache: the mutex, and the steps of the coarse model which it makes
-/

namespace Verif

namespace Fine

variable {α : Type}

/-- The thread is within a critical section. -/
def holds : Pc α → Bool
  | .check | .test _ | .copy _ | .copied _ | .clear _ | .cleared => true
  | .storeTime _ | .storeTtl _ _ | .storeTimeout _ _ | .storeList _ | .storeCopy | .stored _ => true
  | .resetTimeout | .resetList | .wasReset => true
  | _ => false

/-- What a thread within a critical section knows about the variables. -/
def Knows (g : Cache.Globals α) : Pc α → Prop
  | .test n => g.timeout ≥ n
  | .copy n => g.timeout ≥ n ∧ g.list.isSome
  | .clear n => g.timeout < n ∨ g.list = none
  | _ => True

/-- The invariant. -/
structure Inv (s : State α) : Prop where
  owner : ∀ t, holds (s.pc t) = true ↔ s.owner = some t
  knows : ∀ t, Knows s.globals (s.pc t)

theorem knows_free {g : Cache.Globals α} {p : Pc α} (h : holds p = false) : Knows g p := by
  cases p <;> first | trivial | simp [holds] at h

/-- The thread moves within its critical section, or outside of it, and may change the variables if it has the mutex. -/
theorem Inv.moved {s : State α} (hi : Inv s) {t : Nat} {p : Pc α} {g : Cache.Globals α} (hp : holds p = holds (s.pc t))
    (hk : Knows g p) (hg : holds (s.pc t) = true ∨ (g.timeout = s.globals.timeout ∧ g.list = s.globals.list)) :
    Inv ({ s with globals := g }.move t p) := by
  refine ⟨fun u => ?_, fun u => ?_⟩
  · show holds (if u = t then p else s.pc u) = true ↔ s.owner = some u
    split
    · next h => rw [h, hp]; exact hi.owner t
    · exact hi.owner u
  · show Knows g (if u = t then p else s.pc u)
    split
    · exact hk
    · next h =>
      rcases hg with hg | ⟨h1, h2⟩
      · apply knows_free
        cases hu : holds (s.pc u)
        · rfl
        · have h1 := (hi.owner u).1 hu
          rw [(hi.owner t).1 hg] at h1
          exact absurd (Option.some.inj h1).symm h
      · have := hi.knows u
        revert this
        cases s.pc u <;> simp [Knows, h1, h2]

theorem Inv.locked {s s' : State α} (hi : Inv s) {t : Nat} {p : Pc α} (h : s.lock t p = some s') (hp : holds p = true)
    (hk : Knows s.globals p) (hf : holds (s.pc t) = false) : Inv s' := by
  unfold State.lock at h
  split at h
  · next ho =>
    cases h
    refine ⟨fun u => ?_, fun u => ?_⟩
    · show holds (if u = t then p else s.pc u) = true ↔ some t = some u
      split
      · next h => simp [h, hp]
      · next h =>
        rw [hi.owner u, ho]
        simp only [reduceCtorEq, false_iff, Option.some.injEq]
        exact fun h' => h h'.symm
    · show Knows s.globals (if u = t then p else s.pc u)
      split
      · exact hk
      · exact hi.knows u
  · cases h

theorem Inv.unlocked {s : State α} (hi : Inv s) {t : Nat} {p : Pc α} (hp : holds p = false) (hf : holds (s.pc t) = true) :
    Inv (s.unlock t p) := by
  refine ⟨fun u => ?_, fun u => ?_⟩
  · show holds (if u = t then p else s.pc u) = true ↔ none = some u
    split
    · simp [hp]
    · next h =>
      rw [hi.owner u, (hi.owner t).1 hf]
      simp only [reduceCtorEq, iff_false, Option.some.injEq]
      exact fun h' => h h'.symm
  · show Knows s.globals (if u = t then p else s.pc u)
    split
    · exact knows_free hp
    · exact hi.knows u

theorem inv_init : Inv (init α) := ⟨fun _ => by simp [init, holds], fun _ => trivial⟩

theorem inv_go {empty : α} {s s' : State α} {t : Nat} {now : Int} {c : Option (Cache.Action α × Cache.Out α)}
    {r : Option (Cache.Out α)} (hi : Inv s) (h : go empty s t now = some (s', c, r)) : Inv s' := by
  have hk := hi.knows t
  unfold go at h
  cases hp : s.pc t with
  | idle => rw [hp] at h; cases h
  | fetching => rw [hp] at h; cases h
  | enterGet | fetched | enterReset =>
    rw [hp] at h
    simp only [Option.map_eq_some_iff] at h
    obtain ⟨s1, h1, h2⟩ := h
    cases h2
    exact hi.locked h1 rfl trivial (by rw [hp]; rfl)
  | copied | cleared | stored | wasReset =>
    rw [hp] at h
    cases h
    exact hi.unlocked rfl (by rw [hp]; rfl)
  | check =>
    rw [hp] at h
    simp only [Option.some.injEq, Prod.mk.injEq] at h
    obtain ⟨rfl, -, -⟩ := h
    split
    · next h => exact hi.moved (g := s.globals) (by rw [hp]; rfl) h (.inr ⟨rfl, rfl⟩)
    · next h => exact hi.moved (g := s.globals) (by rw [hp]; rfl) (.inl (by omega)) (.inr ⟨rfl, rfl⟩)
  | test n =>
    rw [hp] at h hk
    simp only [Option.some.injEq, Prod.mk.injEq] at h
    obtain ⟨rfl, -, -⟩ := h
    split
    · next h => exact hi.moved (g := s.globals) (by rw [hp]; rfl) ⟨hk, h⟩ (.inr ⟨rfl, rfl⟩)
    · next h =>
      refine hi.moved (g := s.globals) (by rw [hp]; rfl) (.inr ?_) (.inr ⟨rfl, rfl⟩)
      cases hl : s.globals.list with
      | none => rfl
      | some _ => rw [hl] at h; exact absurd rfl h
  | setTtl =>
    rw [hp] at h
    cases h
    exact hi.moved (by rw [hp]; rfl) trivial (.inr ⟨rfl, rfl⟩)
  | _ =>
    rw [hp] at h
    cases h
    first
    | exact hi.moved (g := s.globals) (by rw [hp]; rfl) trivial (.inr ⟨rfl, rfl⟩)
    | exact hi.moved (by rw [hp]; rfl) trivial (.inl (by rw [hp]; rfl))

theorem inv_step {empty : α} {s s' : State α} {a : Action α} {c : Option (Cache.Action α × Cache.Out α)}
    {r : Option (Cache.Out α)} (hi : Inv s) (h : step empty s a = some (s', c, r)) : Inv s' := by
  cases a with
  | step t now => exact inv_go hi h
  | call t k =>
    unfold step at h
    dsimp only at h
    split at h
    · next hp =>
      cases k <;> cases h <;> exact hi.moved (g := s.globals) (by rw [hp]; rfl) trivial (.inr ⟨rfl, rfl⟩)
    · cases h
  | fetch t now ans =>
    unfold step at h
    dsimp only at h
    split at h
    · next hp =>
      cases ans <;> cases h <;> exact hi.moved (g := s.globals) (by rw [hp]; rfl) trivial (.inr ⟨rfl, rfl⟩)
    · cases h

/-- Every state which is reached satisfies the invariant: at most one thread is within a critical section. -/
theorem inv_exec {empty : α} {h : List (Event α)} {s : State α} (hx : Exec empty h s) : Inv s := by
  induction hx with
  | start => exact inv_init
  | next _ hs ih => exact inv_step ih hs

/-! ## The state of the coarse model -/

/-- Where the thread is in the coarse model. -/
def absPc : Pc α → Cache.Pc α
  | .cleared | .fetching => .fetching
  | .fetched l | .storeTime l | .storeTtl l _ => .fetched l
  | _ => .idle

/-- The variables once the thread, which has the mutex, has written what it is about to write. -/
def finish (g : Cache.Globals α) : Pc α → Cache.Globals α
  | .storeTimeout l n => { g with timeout := n, list := some l }
  | .storeList l => { g with list := some l }
  | .resetList => { g with list := none }
  | _ => g

/-- The variables of the coarse model. -/
def absGlobals (s : State α) : Cache.Globals α :=
  match s.owner with
  | none => s.globals
  | some t => finish s.globals (s.pc t)

/-- The state of the coarse model. -/
def abs (s : State α) : Cache.State α := { globals := absGlobals s, pc := fun t => absPc (s.pc t) }

theorem absGlobals_own {s : State α} {t : Nat} (hi : Inv s) (h : holds (s.pc t) = true) :
    absGlobals s = finish s.globals (s.pc t) := by
  rw [absGlobals, (hi.owner t).1 h]

/-- A thread without the mutex moves. -/
theorem absGlobals_move {s : State α} {t : Nat} {p : Pc α} (hi : Inv s) (h : holds (s.pc t) = false) :
    absGlobals (s.move t p) = absGlobals s := by
  unfold absGlobals State.move
  cases ho : s.owner with
  | none => rfl
  | some u =>
    dsimp only
    have : u ≠ t := by
      rintro rfl
      rw [(hi.owner u).2 ho] at h
      cases h
    rw [if_neg this]

theorem abs_pc_move {s : State α} {t : Nat} {p : Pc α} :
    (fun u => absPc ((s.move t p).pc u)) = fun u => if u = t then absPc p else absPc (s.pc u) := by
  funext u
  show absPc (if u = t then p else s.pc u) = _
  split <;> rfl

/-- A thread which has the mutex, before and after. -/
theorem abs_own {s : State α} {t : Nat} {p : Pc α} {g : Cache.Globals α} (hi : Inv s) (h : holds (s.pc t) = true) :
    abs ({ s with globals := g }.move t p) =
      { globals := finish g p, pc := fun u => if u = t then absPc p else absPc (s.pc u) } := by
  have ho := (hi.owner t).1 h
  unfold abs
  congr 1
  · unfold absGlobals State.move
    simp only [ho, if_true]
  · exact abs_pc_move (s := { s with globals := g })

theorem abs_unlock {s : State α} {t : Nat} {p : Pc α} :
    abs (s.unlock t p) = { globals := s.globals, pc := fun u => if u = t then absPc p else absPc (s.pc u) } := by
  unfold abs
  congr 1
  exact abs_pc_move (s := { s with owner := none })

theorem abs_lock {s s' : State α} {t : Nat} {p : Pc α} (h : s.lock t p = some s') :
    s.owner = none ∧ abs s' =
      { globals := finish s.globals p, pc := fun u => if u = t then absPc p else absPc (s.pc u) } := by
  unfold State.lock at h
  split at h
  · next ho =>
    cases h
    refine ⟨ho, ?_⟩
    unfold abs
    congr 1
    · unfold absGlobals State.move
      simp only [if_true]
    · exact abs_pc_move (s := { s with owner := some t })
  · cases h

theorem abs_free {s : State α} {t : Nat} {p : Pc α} (hi : Inv s) (h : holds (s.pc t) = false) :
    abs (s.move t p) = { globals := absGlobals s, pc := fun u => if u = t then absPc p else absPc (s.pc u) } := by
  unfold abs
  rw [absGlobals_move hi h]
  congr 1
  exact abs_pc_move

/-- The thread is in the same place of the coarse model. -/
theorem absPc_same {s : State α} {t : Nat} {p : Cache.Pc α} (h : p = absPc (s.pc t)) :
    (fun u => if u = t then p else absPc (s.pc u)) = fun u => absPc (s.pc u) := by
  funext u
  split
  · next hu => rw [hu, h]
  · rfl

/-- What a transition does in the coarse model: nothing, or the transition which it commits. -/
def Simulates (empty : α) (s s' : State α) : Option (Cache.Action α × Cache.Out α) → Prop
  | none => abs s' = abs s
  | some (a, o) => Cache.step empty (abs s) a = some (abs s', o)

theorem finish_ttl {g : Cache.Globals α} {p : Pc α} {n : Nat} :
    finish { g with ttl := n } p = { finish g p with ttl := n } := by
  cases p <;> rfl

theorem simulates_go {empty : α} {s s' : State α} {t : Nat} {now : Int} {c : Option (Cache.Action α × Cache.Out α)}
    {r : Option (Cache.Out α)} (hi : Inv s) (h : go empty s t now = some (s', c, r)) : Simulates empty s s' c := by
  have hk := hi.knows t
  unfold go at h
  cases hp : s.pc t with
  | idle => rw [hp] at h; cases h
  | fetching => rw [hp] at h; cases h
  | enterGet | fetched | enterReset =>
    rw [hp] at h
    simp only [Option.map_eq_some_iff] at h
    obtain ⟨s1, h1, h2⟩ := h
    cases h2
    obtain ⟨ho, h3⟩ := abs_lock h1
    show abs s' = abs s
    rw [h3, absPc_same (by rw [hp]; rfl)]
    unfold abs absGlobals
    rw [ho]
    rfl
  | copied | cleared | stored | wasReset =>
    rw [hp] at h
    cases h
    show abs _ = abs s
    rw [abs_unlock, absPc_same (by rw [hp]; rfl)]
    unfold abs
    rw [absGlobals_own hi (t := t) (by rw [hp]; rfl), hp]
    rfl
  | check =>
    rw [hp] at h
    simp only [Option.some.injEq, Prod.mk.injEq] at h
    obtain ⟨rfl, rfl, -⟩ := h
    show abs _ = abs s
    have h1 : holds (s.pc t) = true := by rw [hp]; rfl
    split <;>
    · rw [show s.move t _ = { s with globals := s.globals }.move t _ from rfl, abs_own hi h1, absPc_same (by rw [hp]; rfl)]
      unfold abs
      rw [absGlobals_own hi h1, hp]
      rfl
  | test n =>
    rw [hp] at h
    simp only [Option.some.injEq, Prod.mk.injEq] at h
    obtain ⟨rfl, rfl, -⟩ := h
    show abs _ = abs s
    have h1 : holds (s.pc t) = true := by rw [hp]; rfl
    split <;>
    · rw [show s.move t _ = { s with globals := s.globals }.move t _ from rfl, abs_own hi h1, absPc_same (by rw [hp]; rfl)]
      unfold abs
      rw [absGlobals_own hi h1, hp]
      rfl
  | copy n =>
    rw [hp] at h hk
    cases h
    have h1 : holds (s.pc t) = true := by rw [hp]; rfl
    obtain ⟨hk1, hk2⟩ := hk
    obtain ⟨l, hl⟩ := Option.isSome_iff_exists.1 hk2
    show Cache.step empty (abs s) _ = some (abs _, _)
    rw [show s.move t _ = { s with globals := s.globals }.move t _ from rfl, abs_own hi h1, absPc_same (by rw [hp]; rfl)]
    unfold abs
    rw [absGlobals_own hi h1]
    simp only [Cache.step, hp, absPc, finish, hl, if_pos hk1]
  | clear n =>
    rw [hp] at h hk
    cases h
    have h1 : holds (s.pc t) = true := by rw [hp]; rfl
    show Cache.step empty (abs s) _ = some (abs _, _)
    rw [abs_own hi h1]
    unfold abs
    rw [absGlobals_own hi h1]
    simp only [Cache.step, hp, absPc, finish]
    rcases hk with hk | hk
    · cases hl : s.globals.list with
      | none => rfl
      | some l =>
        dsimp only
        rw [if_neg (by omega)]
        rfl
    · rw [hk]
      rfl
  | storeTime l =>
    rw [hp] at h
    cases h
    have h1 : holds (s.pc t) = true := by rw [hp]; rfl
    show abs _ = abs s
    rw [show s.move t _ = { s with globals := s.globals }.move t _ from rfl, abs_own hi h1, absPc_same (by rw [hp]; rfl)]
    unfold abs
    rw [absGlobals_own hi h1, hp]
    rfl
  | storeTtl l n =>
    rw [hp] at h
    cases h
    have h1 : holds (s.pc t) = true := by rw [hp]; rfl
    show Cache.step empty (abs s) _ = some (abs _, _)
    rw [show s.move t _ = { s with globals := s.globals }.move t _ from rfl, abs_own hi h1]
    unfold abs
    rw [absGlobals_own hi h1]
    simp only [Cache.step, hp, absPc, finish]
    rfl
  | storeTimeout l n | storeList l | storeCopy | resetList =>
    rw [hp] at h
    cases h
    have h1 : holds (s.pc t) = true := by rw [hp]; rfl
    show abs _ = abs s
    first
    | rw [abs_own hi h1, absPc_same (by rw [hp]; rfl)]
    | rw [show s.move t _ = { s with globals := s.globals }.move t _ from rfl, abs_own hi h1, absPc_same (by rw [hp]; rfl)]
    unfold abs
    rw [absGlobals_own hi h1, hp]
    rfl
  | resetTimeout =>
    rw [hp] at h
    cases h
    have h1 : holds (s.pc t) = true := by rw [hp]; rfl
    show Cache.step empty (abs s) _ = some (abs _, _)
    rw [abs_own hi h1, absPc_same (by rw [hp]; rfl)]
    unfold abs
    rw [absGlobals_own hi h1, hp]
    rfl
  | setTtl n =>
    rw [hp] at h
    cases h
    have h1 : holds (s.pc t) = false := by rw [hp]; rfl
    show Cache.step empty (abs s) _ = some (abs _, _)
    have h2 : Inv { s with globals := { s.globals with ttl := n } } :=
      ⟨hi.owner, fun u => by have := hi.knows u; revert this; cases hu : s.pc u <;> simp [Knows, hu]⟩
    rw [abs_free h2 h1, absPc_same (by show _ = absPc (s.pc t); rw [hp]; rfl)]
    simp only [Cache.step, abs]
    congr 3
    unfold absGlobals
    cases s.owner with
    | none => rfl
    | some u => exact (finish_ttl).symm
  | leaving o =>
    rw [hp] at h
    cases h
    have h1 : holds (s.pc t) = false := by rw [hp]; rfl
    show abs _ = abs s
    rw [abs_free hi h1, absPc_same (by rw [hp]; rfl)]
    rfl

theorem simulates_step {empty : α} {s s' : State α} {a : Action α} {c : Option (Cache.Action α × Cache.Out α)}
    {r : Option (Cache.Out α)} (hi : Inv s) (h : step empty s a = some (s', c, r)) : Simulates empty s s' c := by
  cases a with
  | step t now => exact simulates_go hi h
  | call t k =>
    unfold step at h
    dsimp only at h
    split at h
    · next hp =>
      have h1 : holds (s.pc t) = false := by rw [hp]; rfl
      cases k <;> cases h <;> (show abs _ = abs s; rw [abs_free hi h1, absPc_same (by rw [hp]; rfl)]; rfl)
    · cases h
  | fetch t now ans =>
    unfold step at h
    dsimp only at h
    split at h
    · next hp =>
      have h1 : holds (s.pc t) = false := by rw [hp]; rfl
      cases ans <;> cases h <;>
        (show Cache.step empty (abs s) _ = some (abs _, _)
         rw [abs_free hi h1]
         simp only [Cache.step, abs, hp, absPc]
         rfl)
    · cases h

end Fine

end Verif
