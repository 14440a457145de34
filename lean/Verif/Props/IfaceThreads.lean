import Verif.Lemmas.IfaceFine
import Verif.Lemmas.Iface

/-!
# C106 and C107: the threads which use the cache of the interfaces
-/

namespace Verif

open Spec

variable {α : Type}

namespace Fine

/-- Two accesses conflict: the same variable, which one of them writes. -/
def Conflict (a b : Var × Bool) : Prop := a.1 = b.1 ∧ (a.2 = true ∨ b.2 = true)

/-- A data race on a variable: two threads are about to make conflicting accesses to it, in whichever order. -/
def Race (s : State α) (v : Var) : Prop :=
  ∃ t u a b, t ≠ u ∧ next (s.pc t) = some a ∧ next (s.pc u) = some b ∧ Conflict a b ∧ a.1 = v

/-- The transitions of the coarse model which took effect. -/
def commits (h : List (Event α)) : List (Spec.Event α) := h.filterMap (·.commit)

/-- The value `o`, with which the call of the thread `t` ends, was decided by a transition of this very call: since then the
thread only went on, and neither called anything nor returned. -/
def Decided (t : Nat) (h : List (Event α)) (o : Cache.Out α) : Prop :=
  ∃ h1 e h2 a, h = h1 ++ e :: h2 ∧ e.action.thread = t ∧ e.commit = some (a, o) ∧
    ∀ x ∈ h1, x.action.thread = t → (∃ now, x.action = .step t now) ∧ x.commit = none ∧ x.ret = none

/-- The time which is read by a transition. -/
def timeRead : Event α → Option Int
  | ⟨.call _ _, _, _⟩ => none
  | ⟨.fetch _ now _, _, _⟩ => some now
  | ⟨.step _ now, _, _⟩ => some now

/-- The clock never goes back and is after 1970-01-01 00:00:00. -/
def Clock (h : List (Event α)) : Prop :=
  (h.filterMap timeRead).Pairwise (fun later earlier => earlier ≤ later) ∧ ∀ n ∈ h.filterMap timeRead, 0 < n

end Fine

open Fine

/-! ## C106 -/

/-- The variable of the globals. -/
def Fine.Unchanged (v : Var) (g g' : Cache.Globals α) : Prop :=
  match v with
  | .timeout => g'.timeout = g.timeout
  | .list => g'.list = g.list
  | .ttl => g'.ttl = g.ttl

/-- **C106**, the accesses are all there: a variable which a transition changes is one which the thread was about to write. -/
theorem C106_writes {empty : α} {s s' : Fine.State α} {a : Fine.Action α} {c : Option (Cache.Action α × Cache.Out α)}
    {r : Option (Cache.Out α)} (h : Fine.step empty s a = some (s', c, r)) (v : Var)
    (hv : ¬ Unchanged v s.globals s'.globals) : Fine.next (s.pc a.thread) = some (v, true) := by
  cases a with
  | call t k =>
    unfold Fine.step at h
    dsimp only at h
    split at h
    · cases k <;> cases h <;> cases v <;> exact absurd rfl hv
    · cases h
  | fetch t now ans =>
    unfold Fine.step at h
    dsimp only at h
    split at h
    · cases ans <;> cases h <;> cases v <;> exact absurd rfl hv
    · cases h
  | step t now =>
    have h : go empty s t now = some (s', c, r) := h
    show Fine.next (s.pc t) = _
    unfold go at h
    cases hp : s.pc t with
    | idle => rw [hp] at h; cases h
    | fetching => rw [hp] at h; cases h
    | enterGet | fetched | enterReset =>
      rw [hp] at h
      simp only [Option.map_eq_some_iff] at h
      obtain ⟨s1, h1, h2⟩ := h
      cases h2
      unfold State.lock at h1
      split at h1
      · cases h1
        cases v <;> exact absurd rfl hv
      · cases h1
    | check | test =>
      rw [hp] at h
      simp only [Option.some.injEq, Prod.mk.injEq] at h
      obtain ⟨rfl, -, -⟩ := h
      exfalso
      apply hv
      split <;> cases v <;> rfl
    | _ =>
      rw [hp] at h
      cases h
      cases v <;> first | rfl | exact absurd rfl hv

/-- The state with other variables. -/
def Fine.State.withGlobals (s : Fine.State α) (g : Cache.Globals α) : Fine.State α := { s with globals := g }

/-- **C106**, the accesses are all there: a transition does the same, except for the variables which it leaves alone, when the
variables which the thread was not about to access have other values. -/
theorem C106_reads {empty : α} {s s' : Fine.State α} {a : Fine.Action α} {c : Option (Cache.Action α × Cache.Out α)}
    {r : Option (Cache.Out α)} (h : Fine.step empty s a = some (s', c, r)) (g : Cache.Globals α)
    (hg : ∀ v w, Fine.next (s.pc a.thread) = some (v, w) → Unchanged v s.globals g) :
    ∃ g', Fine.step empty (s.withGlobals g) a = some (s'.withGlobals g', c, r) ∧
      ∀ v, (∀ w, Fine.next (s.pc a.thread) ≠ some (v, w)) → Unchanged v g g' := by
  cases a with
  | call t k =>
    refine ⟨g, ?_, fun v _ => by cases v <;> rfl⟩
    unfold Fine.step at h ⊢
    dsimp only [State.withGlobals] at h ⊢
    split at h
    · next hp => cases k <;> cases h <;> rfl
    · cases h
  | fetch t now ans =>
    refine ⟨g, ?_, fun v _ => by cases v <;> rfl⟩
    unfold Fine.step at h ⊢
    dsimp only [State.withGlobals] at h ⊢
    split at h
    · next hp => cases ans <;> cases h <;> rfl
    · cases h
  | step t now =>
    have h : go empty s t now = some (s', c, r) := h
    show ∃ g', go empty (s.withGlobals g) t now = _ ∧ ∀ v, (∀ w, Fine.next (s.pc t) ≠ some (v, w)) → _
    have hg : ∀ v w, Fine.next (s.pc t) = some (v, w) → Unchanged v s.globals g := hg
    unfold go at h ⊢
    have hw : (s.withGlobals g).pc t = s.pc t := rfl
    cases hp : s.pc t with
    | idle => rw [hp] at h; cases h
    | fetching => rw [hp] at h; cases h
    | enterGet | fetched | enterReset =>
      rw [hp] at h
      simp only [Option.map_eq_some_iff] at h
      obtain ⟨s1, h1, h2⟩ := h
      cases h2
      refine ⟨g, ?_, fun v _ => by cases v <;> rfl⟩
      rw [hw, hp]
      unfold State.lock at h1 ⊢
      dsimp only [State.withGlobals]
      split at h1
      · cases h1; rfl
      · cases h1
    | check =>
      rw [hp] at h
      simp only [Option.some.injEq, Prod.mk.injEq] at h
      obtain ⟨rfl, rfl, rfl⟩ := h
      have e : g.timeout = s.globals.timeout := hg .timeout false (by rw [hp]; rfl)
      refine ⟨g, ?_, fun v _ => by cases v <;> rfl⟩
      rw [hw, hp]
      dsimp only [State.withGlobals]
      rw [e]
      split <;> rfl
    | test =>
      rw [hp] at h
      simp only [Option.some.injEq, Prod.mk.injEq] at h
      obtain ⟨rfl, rfl, rfl⟩ := h
      have e : g.list = s.globals.list := hg .list false (by rw [hp]; rfl)
      refine ⟨g, ?_, fun v _ => by cases v <;> rfl⟩
      rw [hw, hp]
      dsimp only [State.withGlobals]
      rw [e]
      split <;> rfl
    | copy | storeCopy =>
      rw [hp] at h
      cases h
      have e : g.list = s.globals.list := hg .list false (by rw [hp]; rfl)
      refine ⟨g, ?_, fun v _ => by cases v <;> rfl⟩
      rw [hw, hp]
      dsimp only [State.withGlobals]
      rw [e]
      rfl
    | storeTtl =>
      rw [hp] at h
      cases h
      have e : g.ttl = s.globals.ttl := hg .ttl false (by rw [hp]; rfl)
      refine ⟨g, ?_, fun v _ => by cases v <;> rfl⟩
      rw [hw, hp]
      dsimp only [State.withGlobals]
      rw [e]
      rfl
    | clear | storeTimeout | storeList | resetTimeout | resetList | setTtl =>
      rw [hp] at h
      cases h
      rw [hw, hp]
      refine ⟨_, rfl, fun v hv => ?_⟩
      cases v <;> first | rfl | exact absurd rfl (hv true)
    | _ =>
      rw [hp] at h
      cases h
      rw [hw, hp]
      exact ⟨g, rfl, fun v _ => by cases v <;> rfl⟩

/-- The claim of C106: the functions of the cache can be called from any thread at any time, without a data race. -/
def C106_claim : Prop :=
  ∀ (α : Type) (empty : α) (h : List (Fine.Event α)) (s : Fine.State α), Fine.Exec empty h s → ∀ v, ¬ Race s v

/-- A thread is about to read the TTL, with the mutex, while another one is about to write it, without the mutex. -/
def racing : List (Fine.Action Nat) :=
  [.call 1 .get, .step 1 5, .step 1 5, .step 1 5, .step 1 5, .fetch 1 6 (.list 7), .step 1 6, .step 1 6, .call 2 (.setTtl 10)]

/-- The transitions, one after the other. -/
def Fine.run (empty : α) : List (Fine.Action α) → List (Fine.Event α) × Fine.State α →
    Option (List (Fine.Event α) × Fine.State α)
  | [], x => some x
  | a :: as, (h, s) =>
    match Fine.step empty s a with
    | some (s', c, r) => Fine.run empty as (⟨a, c, r⟩ :: h, s')
    | none => none

theorem run_exec {empty : α} {as : List (Fine.Action α)} {h h' : List (Fine.Event α)} {s s' : Fine.State α}
    (hx : Fine.Exec empty h s) (hr : Fine.run empty as (h, s) = some (h', s')) : Fine.Exec empty h' s' := by
  induction as generalizing h s with
  | nil =>
    cases hr
    exact hx
  | cons a as ih =>
    rw [Fine.run] at hr
    cases hs : Fine.step empty s a with
    | none => rw [hs] at hr; cases hr
    | some x =>
      obtain ⟨s1, c, r⟩ := x
      rw [hs] at hr
      exact ih (hx.next hs) hr

/-- The state after `racing`. -/
theorem racing_exec : ∃ h s, Fine.Exec 0 h s ∧ s.pc 1 = .storeTtl 7 6 ∧ s.pc 2 = .setTtl 10 := by
  refine ⟨_, _, run_exec (as := racing) .start rfl, rfl, rfl⟩

/-- C106 is false: the TTL is written without the mutex under which it is read. -/
theorem C106_claim_fails : ¬ C106_claim := by
  intro hc
  obtain ⟨h, s, hx, h1, h2⟩ := racing_exec
  refine hc Nat 0 h s hx .ttl ⟨1, 2, (.ttl, false), (.ttl, true), by decide, ?_, ?_, ⟨rfl, .inr rfl⟩, rfl⟩
  · rw [h1]; rfl
  · rw [h2]; rfl

/-- The variable of a thread within a critical section. -/
theorem next_held {p : Fine.Pc α} {v : Var} {w : Bool} (h : Fine.next p = some (v, w)) (hv : v ≠ .ttl) : holds p = true := by
  cases p <;> cases h <;> first | rfl | exact absurd rfl hv

/-- **C106**, what is true: however many threads call the functions, the only data races are those on the TTL. -/
theorem C106_partial {empty : α} {h : List (Fine.Event α)} {s : Fine.State α} (hx : Fine.Exec empty h s) {v : Var}
    (hr : Race s v) : v = .ttl := by
  obtain ⟨t, u, ⟨a, wa⟩, ⟨b, wb⟩, htu, ht, hu, ⟨hab, -⟩, rfl⟩ := hr
  by_cases hv : a = .ttl
  · exact hv
  · have hi := inv_exec hx
    have e1 := (hi.owner t).1 (next_held ht hv)
    have e2 := (hi.owner u).1 (next_held hu (by rw [← show a = b from hab]; exact hv))
    rw [e1] at e2
    exact absurd (Option.some.inj e2) htu

/-- The thread which sets the TTL called the function. -/
theorem setTtl_called {empty : α} {h : List (Fine.Event α)} {s : Fine.State α} (hx : Fine.Exec empty h s) {t n : Nat}
    (hp : s.pc t = .setTtl n) : ∃ e ∈ h, e.action = .call t (.setTtl n) := by
  induction hx with
  | start => cases hp
  | @next h s s' a c r hx hs ih =>
    have keep : s'.pc t = s.pc t → ∃ e ∈ (⟨a, c, r⟩ : Fine.Event α) :: h, e.action = .call t (.setTtl n) := by
      intro hk
      obtain ⟨e, he, h1⟩ := ih (hk ▸ hp)
      exact ⟨e, List.mem_cons_of_mem _ he, h1⟩
    have moved : ∀ (s1 : Fine.State α) (u : Nat) (p : Fine.Pc α), s' = s1.move u p → s1.pc = s.pc →
        (u = t → p = .setTtl n → a = .call t (.setTtl n)) → ∃ e ∈ (⟨a, c, r⟩ : Fine.Event α) :: h, e.action = .call t (.setTtl n) := by
      intro s1 u p h1 h2 h3
      by_cases e : t = u
      · refine ⟨_, List.mem_cons_self, h3 e.symm ?_⟩
        rw [← hp, h1]
        show p = if t = u then p else s1.pc t
        rw [if_pos e]
      · apply keep
        rw [h1]
        show (if t = u then p else s1.pc t) = _
        rw [if_neg e, h2]
    cases a with
    | call u k =>
      unfold Fine.step at hs
      dsimp only at hs
      split at hs
      · cases k <;> cases hs <;> refine moved s u _ rfl rfl fun h1 h2 => ?_ <;> cases h2
        rw [h1]
      · cases hs
    | fetch u now ans =>
      unfold Fine.step at hs
      dsimp only at hs
      split at hs
      · cases ans <;> cases hs <;> exact moved s u _ rfl rfl fun h1 h2 => nomatch h2
      · cases hs
    | step u now =>
      have hs : go empty s u now = some (s', c, r) := hs
      unfold go at hs
      cases hq : s.pc u with
      | idle => rw [hq] at hs; cases hs
      | fetching => rw [hq] at hs; cases hs
      | enterGet | fetched | enterReset =>
        rw [hq] at hs
        simp only [Option.map_eq_some_iff] at hs
        obtain ⟨s1, h1, h2⟩ := hs
        cases h2
        unfold State.lock at h1
        split at h1
        · cases h1
          exact moved { s with owner := some u } u _ rfl rfl fun h1 h2 => nomatch h2
        · cases h1
      | check | test =>
        rw [hq] at hs
        simp only [Option.some.injEq, Prod.mk.injEq] at hs
        obtain ⟨h1, -, -⟩ := hs
        split at h1 <;> exact moved s u _ h1.symm rfl fun _ h2 => nomatch h2
      | clear =>
        rw [hq] at hs
        cases hs
        exact moved { s with globals := { s.globals with list := some empty } } u _ rfl rfl fun h1 h2 => nomatch h2
      | storeTimeout l m =>
        rw [hq] at hs
        cases hs
        exact moved { s with globals := { s.globals with timeout := m } } u _ rfl rfl fun h1 h2 => nomatch h2
      | storeList l =>
        rw [hq] at hs
        cases hs
        exact moved { s with globals := { s.globals with list := some l } } u _ rfl rfl fun h1 h2 => nomatch h2
      | resetTimeout =>
        rw [hq] at hs
        cases hs
        exact moved { s with globals := { s.globals with timeout := 0 } } u _ rfl rfl fun h1 h2 => nomatch h2
      | resetList =>
        rw [hq] at hs
        cases hs
        exact moved { s with globals := { s.globals with list := none } } u _ rfl rfl fun h1 h2 => nomatch h2
      | setTtl m =>
        rw [hq] at hs
        cases hs
        exact moved { s with globals := { s.globals with ttl := m } } u _ rfl rfl fun h1 h2 => nomatch h2
      | copied | cleared | stored | wasReset =>
        rw [hq] at hs
        cases hs
        exact moved { s with owner := none } u _ rfl rfl fun h1 h2 => nomatch h2
      | _ =>
        rw [hq] at hs
        cases hs
        exact moved s u _ rfl rfl fun h1 h2 => nomatch h2

/-- **C106**, what is true: there is no data race as long as no thread sets the TTL. -/
theorem C106_without_ttl {empty : α} {h : List (Fine.Event α)} {s : Fine.State α} (hx : Fine.Exec empty h s)
    (hn : ∀ e ∈ h, ∀ t n, e.action ≠ .call t (.setTtl n)) (v : Var) : ¬ Race s v := by
  intro hr
  have hv := C106_partial hx hr
  subst hv
  obtain ⟨t, u, ⟨a, wa⟩, ⟨b, wb⟩, htu, ht, hu, ⟨hab, hw⟩, rfl⟩ := hr
  have key : ∀ (t : Nat) (v : Var), Fine.next (s.pc t) = some (v, true) → v = .ttl → False := by
    intro t v ht hv
    subst hv
    cases hp : s.pc t with
    | setTtl n =>
      obtain ⟨e, he, h1⟩ := setTtl_called hx hp
      exact hn e he t n h1
    | _ => rw [hp] at ht; cases ht
  have hb : b = .ttl := hab.symm
  rcases hw with rfl | rfl
  · exact key t _ ht rfl
  · exact key u b hu hb

/-- Three threads, one within each critical section in turn, without a call which sets the TTL. -/
example : ∃ h s, Fine.Exec 0 h s ∧ h.length = 13 ∧ (∀ e ∈ h, ∀ t n, e.action ≠ .call t (.setTtl n)) ∧ s.pc 1 = .storeTtl 7 6 ∧
    s.pc 2 = .enterReset ∧ s.pc 3 = .enterGet := by
  refine ⟨_, _, run_exec (as := [.call 3 .get, .call 1 .get, .step 1 5, .step 1 5, .step 1 5, .call 2 .reset, .step 1 5,
    .fetch 1 6 (.list 7), .step 1 6, .step 1 6, .call 4 .get, .call 5 .get, .call 6 .get]) .start rfl, rfl, ?_, rfl, rfl, rfl⟩
  simp

/-! ## C107 -/

/-- **C107**: whatever the threads do, one access at a time, is what whole critical sections do one after the other. -/
theorem C107_atomic {empty : α} {h : List (Fine.Event α)} {s : Fine.State α} (hx : Fine.Exec empty h s) :
    Cache.Exec empty (commits h) (abs s) := by
  induction hx with
  | start => exact .start
  | @next h s s' a c r hx hs ih =>
    have hsim := simulates_step (inv_exec hx) hs
    cases c with
    | none =>
      rw [show commits (⟨a, none, r⟩ :: h) = commits h from rfl, show abs s' = abs s from hsim]
      exact ih
    | some x =>
      obtain ⟨b, o⟩ := x
      exact .next ih hsim

/-- Between the calls the variables are those of the coarse model. -/
theorem C107_state {s : Fine.State α} (h : s.owner = none) : (abs s).globals = s.globals := by
  show absGlobals s = _
  rw [absGlobals, h]

/-- What the thread is about to return, in this place. -/
def Fine.Due (g : Cache.Globals α) (h : List (Fine.Event α)) (t : Nat) : Fine.Pc α → Prop
  | .copied r | .stored r => Decided t h (.returns r)
  | .storeTimeout l _ | .storeList l => Decided t h (.returns (some l))
  | .storeCopy => Decided t h (.returns g.list)
  | .resetList | .wasReset => Decided t h .nothing
  | .leaving o => Decided t h o
  | _ => True

theorem decided_other {h : List (Fine.Event α)} {t : Nat} {o : Cache.Out α} {e : Fine.Event α} (he : e.action.thread ≠ t)
    (hd : Decided t h o) : Decided t (e :: h) o := by
  obtain ⟨h1, x, h2, a, rfl, hx, hc, hn⟩ := hd
  exact ⟨e :: h1, x, h2, a, rfl, hx, hc, fun y hy hyt =>
    (List.mem_cons.1 hy).elim (fun hy => absurd (hy ▸ hyt) he) fun hy => hn y hy hyt⟩

theorem decided_on {h : List (Fine.Event α)} {t : Nat} {o : Cache.Out α} {now : Int} (hd : Decided t h o) :
    Decided t (⟨.step t now, none, none⟩ :: h) o := by
  obtain ⟨h1, x, h2, a, rfl, hx, hc, hn⟩ := hd
  exact ⟨_ :: h1, x, h2, a, rfl, hx, hc, fun y hy hyt =>
    (List.mem_cons.1 hy).elim (fun hy => by subst hy; exact ⟨⟨now, rfl⟩, rfl, rfl⟩) fun hy => hn y hy hyt⟩

theorem decided_now {h : List (Fine.Event α)} {o : Cache.Out α} {a : Fine.Action α} {b : Cache.Action α} {r : Option (Cache.Out α)} :
    Decided a.thread (⟨a, some (b, o), r⟩ :: h) o :=
  ⟨[], _, h, b, rfl, rfl, rfl, fun _ hy => nomatch hy⟩

theorem due_other {g g' : Cache.Globals α} {h : List (Fine.Event α)} {t : Nat} {p : Fine.Pc α} {e : Fine.Event α}
    (he : e.action.thread ≠ t) (hg : holds p = true → g'.list = g.list) (hd : Due g h t p) : Due g' (e :: h) t p := by
  cases p with
  | storeCopy =>
    have hd : Decided t h (.returns g.list) := hd
    show Decided t (e :: h) (.returns g'.list)
    rw [hg rfl]
    exact decided_other he hd
  | copied | stored | storeTimeout | storeList | resetList | wasReset | leaving => exact decided_other he hd
  | _ => trivial

/-- What every thread is about to return was decided during its call. -/
theorem due_exec {empty : α} {h : List (Fine.Event α)} {s : Fine.State α} (hx : Fine.Exec empty h s) (t : Nat) :
    Due s.globals h t (s.pc t) := by
  induction hx with
  | start => trivial
  | @next h s s' a c r hx hs ih =>
    have hi := inv_exec hx
    have moved : ∀ (u : Nat) (p : Fine.Pc α), a.thread = u → s'.pc = (s.move u p).pc →
        (holds (s.pc u) = true ∨ s'.globals.list = s.globals.list) →
        (Due s.globals h u (s.pc u) → Due s'.globals (⟨a, c, r⟩ :: h) u p) → Due s'.globals (⟨a, c, r⟩ :: h) t (s'.pc t) := by
      intro u p h1 h2 h3 h4
      rw [h2]
      show Due _ _ t (if t = u then p else s.pc t)
      split
      · next e => subst e; exact h4 ih
      · next e =>
        refine due_other (fun h => e (h.symm.trans h1)) (fun hh => ?_) ih
        rcases h3 with h3 | h3
        · have e1 := (hi.owner t).1 hh
          rw [(hi.owner u).1 h3] at e1
          exact absurd (Option.some.inj e1).symm e
        · exact h3
    cases a with
    | call u k =>
      unfold Fine.step at hs
      dsimp only at hs
      split at hs
      · cases k <;> cases hs <;> exact moved u _ rfl rfl (.inr rfl) fun _ => trivial
      · cases hs
    | fetch u now ans =>
      unfold Fine.step at hs
      dsimp only at hs
      split at hs
      · cases ans <;> cases hs
        · exact moved u _ rfl rfl (.inr rfl) fun _ => trivial
        · exact moved u _ rfl rfl (.inr rfl) fun _ => decided_now (a := .fetch u now .fails)
        · exact moved u _ rfl rfl (.inr rfl) fun _ => decided_now (a := .fetch u now .throws)
      · cases hs
    | step u now =>
      have hs : go empty s u now = some (s', c, r) := hs
      unfold go at hs
      cases hq : s.pc u with
      | idle => rw [hq] at hs; cases hs
      | fetching => rw [hq] at hs; cases hs
      | enterGet | fetched | enterReset =>
        rw [hq] at hs
        simp only [Option.map_eq_some_iff] at hs
        obtain ⟨s1, h1, h2⟩ := hs
        cases h2
        unfold State.lock at h1
        split at h1
        · cases h1
          exact moved u _ rfl rfl (.inr rfl) fun _ => trivial
        · cases h1
      | check | test =>
        rw [hq] at hs
        simp only [Option.some.injEq, Prod.mk.injEq] at hs
        obtain ⟨h1, -, -⟩ := hs
        split at h1 <;> subst h1 <;> exact moved u _ rfl rfl (.inr rfl) fun _ => trivial
      | copy | storeTtl | resetTimeout | setTtl =>
        rw [hq] at hs
        cases hs
        exact moved u _ rfl rfl (.inr rfl) fun _ => decided_now (a := .step u now)
      | clear | cleared | storeTime =>
        rw [hq] at hs
        cases hs
        exact moved u _ rfl rfl (.inl (by rw [hq]; rfl)) fun _ => trivial
      | storeTimeout | storeList | storeCopy | resetList | wasReset | copied | stored =>
        rw [hq] at hs
        cases hs
        exact moved u _ rfl rfl (.inl (by rw [hq]; rfl)) fun h => by rw [hq] at h; exact decided_on h
      | leaving =>
        rw [hq] at hs
        cases hs
        exact moved u _ rfl rfl (.inr rfl) fun _ => trivial

/-- The end of a call. -/
theorem ret_leaving {empty : α} {s s' : Fine.State α} {a : Fine.Action α} {c : Option (Cache.Action α × Cache.Out α)}
    {o : Cache.Out α} (hs : Fine.step empty s a = some (s', c, some o)) : s.pc a.thread = .leaving o := by
  cases a with
  | call u k =>
    unfold Fine.step at hs
    dsimp only at hs
    split at hs
    · cases k <;> cases hs
    · cases hs
  | fetch u now ans =>
    unfold Fine.step at hs
    dsimp only at hs
    split at hs
    · cases ans <;> cases hs
    · cases hs
  | step u now =>
    have hs : go empty s u now = some (s', c, some o) := hs
    show s.pc u = _
    unfold go at hs
    cases hq : s.pc u with
    | enterGet | fetched | enterReset =>
      rw [hq] at hs
      simp only [Option.map_eq_some_iff] at hs
      obtain ⟨s1, h1, h2⟩ := hs
      cases h2
    | _ => rw [hq] at hs; cases hs; try rfl

/-- **C107**: the value with which a call ends is the one of a transition of the coarse model which took effect during this
call. -/
theorem C107_returns {empty : α} {h : List (Fine.Event α)} {s : Fine.State α} {e : Fine.Event α}
    (hx : Fine.Exec empty (e :: h) s) {o : Cache.Out α} (he : e.ret = some o) : Decided e.action.thread h o := by
  cases hx with
  | @next _ s1 _ a c r hx hs =>
    cases he
    have hd := due_exec hx a.thread
    rw [ret_leaving hs] at hd
    exact hd

/-- **C107**: the threads never block each other for good: a thread which does not wait for the system can go on, or it waits for
the mutex and the thread which has it can go on. -/
theorem C107_no_deadlock {empty : α} {h : List (Fine.Event α)} {s : Fine.State α} (hx : Fine.Exec empty h s) (t : Nat) (now : Int)
    (hi : s.pc t ≠ .idle) (hf : s.pc t ≠ .fetching) :
    (go empty s t now).isSome ∨ ∃ u, u ≠ t ∧ s.owner = some u ∧ (go empty s u now).isSome := by
  have hinv := inv_exec hx
  have own : ∀ u, holds (s.pc u) = true → (go empty s u now).isSome := by
    intro u hu
    unfold go
    cases hq : s.pc u <;> first | rfl | (rw [hq] at hu; cases hu)
  have wait : ∀ p, holds (s.pc t) = false →
      (((s.lock t p).map fun s => ((s, none, none) :
        Fine.State α × Option (Cache.Action α × Cache.Out α) × Option (Cache.Out α))).isSome = true ∨
        ∃ u, u ≠ t ∧ s.owner = some u ∧ (go empty s u now).isSome) := by
    intro p hh
    unfold State.lock
    cases ho : s.owner with
    | none => exact .inl rfl
    | some u =>
      have hu := (hinv.owner u).2 ho
      refine .inr ⟨u, ?_, rfl, own u hu⟩
      rintro rfl
      rw [hh] at hu
      cases hu
  cases hq : s.pc t with
  | idle => exact absurd hq hi
  | fetching => exact absurd hq hf
  | enterGet | fetched | enterReset =>
    have := wait (match s.pc t with | .enterGet => .check | .fetched l => .storeTime l | _ => .resetTimeout) (by rw [hq]; rfl)
    rw [hq] at this
    unfold go
    rw [hq]
    exact this
  | setTtl | leaving => exact .inl (by unfold go; rw [hq]; rfl)
  | _ => exact .inl (own t (by rw [hq]; rfl))

/-! ### What the calls return -/

/-- The times which the first critical sections read. -/
structure Fine.Times (h : List (Fine.Event α)) (s : Fine.State α) : Prop where
  read : ∀ x ∈ commits h, IsEnter x → timeOf x ∈ h.filterMap timeRead
  last : ∀ t n, (s.pc t = .test n ∨ s.pc t = .copy n ∨ s.pc t = .clear n) →
    n ∈ h.filterMap timeRead ∧ ∀ x ∈ commits h, IsEnter x → timeOf x ≤ n

theorem commits_cons {e : Fine.Event α} {h : List (Fine.Event α)} {x : Spec.Event α} (hx : x ∈ commits (e :: h)) :
    e.commit = some x ∨ x ∈ commits h := by
  obtain ⟨y, hy, hyx⟩ := List.mem_filterMap.1 hx
  rcases List.mem_cons.1 hy with rfl | hy
  · exact .inl hyx
  · exact .inr (List.mem_filterMap.2 ⟨y, hy, hyx⟩)

theorem times_mono {e : Fine.Event α} {h : List (Fine.Event α)} {n : Int} (hn : n ∈ h.filterMap timeRead) :
    n ∈ (e :: h).filterMap timeRead := by
  obtain ⟨y, hy, hyx⟩ := List.mem_filterMap.1 hn
  exact List.mem_filterMap.2 ⟨y, List.mem_cons_of_mem _ hy, hyx⟩

theorem fine_clock_tail {e : Fine.Event α} {h : List (Fine.Event α)} (hc : Fine.Clock (e :: h)) : Fine.Clock h := by
  refine ⟨?_, fun n hn => hc.2 n (times_mono hn)⟩
  have h1 := hc.1
  rw [List.filterMap_cons] at h1
  cases ht : timeRead e with
  | none => rw [ht] at h1; exact h1
  | some n => rw [ht] at h1; exact (List.pairwise_cons.1 h1).2

/-- The place of a thread which read the time in its first critical section. -/
def Fine.ReadTime (p : Fine.Pc α) (n : Int) : Prop := p = .test n ∨ p = .copy n ∨ p = .clear n

theorem readTime_holds {p : Fine.Pc α} {n : Int} (h : ReadTime p n) : holds p = true := by
  rcases h with rfl | rfl | rfl <;> rfl

theorem times_exec {empty : α} {h : List (Fine.Event α)} {s : Fine.State α} (hx : Fine.Exec empty h s) (hc : Fine.Clock h) :
    Times h s := by
  induction hx with
  | start => exact ⟨(fun x hx => nomatch hx), fun t n h => by rcases h with h | h | h <;> cases h⟩
  | @next h s s' a c r hx hs ih =>
    have ih := ih (fine_clock_tail hc)
    have hi := inv_exec hx
    -- a transition which does not commit a first critical section
    have quiet : ∀ (u : Nat) (p : Fine.Pc α), s'.pc = (s.move u p).pc → (∀ x, c = some x → ¬ IsEnter x) →
        (∀ n, ReadTime p n → n ∈ (⟨a, c, r⟩ :: h : List (Fine.Event α)).filterMap timeRead ∧
          ∀ x ∈ commits h, IsEnter x → timeOf x ≤ n) → Times (⟨a, c, r⟩ :: h) s' := by
      intro u p h1 h2 h3
      have sub : ∀ x ∈ commits (⟨a, c, r⟩ :: h), IsEnter x → x ∈ commits h := by
        intro x hx he
        rcases commits_cons hx with hx | hx
        · exact absurd he (h2 x hx)
        · exact hx
      refine ⟨fun x hx he => times_mono (ih.read x (sub x hx he) he), fun t n hp => ?_⟩
      rw [h1] at hp
      by_cases e : t = u
      · have hp : ReadTime p n := by
          simpa only [State.move, if_pos e, ReadTime] using hp
        obtain ⟨g1, g2⟩ := h3 n hp
        exact ⟨g1, fun x hx he => g2 x (sub x hx he) he⟩
      · have hp : ReadTime (s.pc t) n := by
          simpa only [State.move, if_neg e, ReadTime] using hp
        obtain ⟨g1, g2⟩ := ih.last t n hp
        exact ⟨times_mono g1, fun x hx he => g2 x (sub x hx he) he⟩
    -- a transition which does
    have loud : ∀ (u : Nat) (n : Int) (p : Fine.Pc α) (o : Cache.Out α), s'.pc = (s.move u p).pc → ReadTime (s.pc u) n →
        c = some (.enter u n, o) → (∀ m, ¬ ReadTime p m) → Times (⟨a, c, r⟩ :: h) s' := by
      intro u n p o h1 h2 h3 h4
      obtain ⟨g1, g2⟩ := ih.last u n h2
      refine ⟨fun x hx he => ?_, fun t m hp => ?_⟩
      · rcases commits_cons hx with hx | hx
        · rw [show c = some x from hx] at h3
          cases h3
          exact times_mono g1
        · exact times_mono (ih.read x hx he)
      · rw [h1] at hp
        by_cases e : t = u
        · have hp : ReadTime p m := by
            simpa only [State.move, if_pos e, ReadTime] using hp
          exact absurd hp (h4 m)
        · have hp : ReadTime (s.pc t) m := by
            simpa only [State.move, if_neg e, ReadTime] using hp
          have e1 := (hi.owner t).1 (readTime_holds hp)
          rw [(hi.owner u).1 (readTime_holds h2)] at e1
          exact absurd (Option.some.inj e1).symm e
    have none' : ∀ {p : Fine.Pc α}, (∀ m, ¬ ReadTime p m) → ∀ n, ReadTime p n →
        n ∈ (⟨a, c, r⟩ :: h : List (Fine.Event α)).filterMap timeRead ∧ ∀ x ∈ commits h, IsEnter x → timeOf x ≤ n :=
      fun hp n hn => absurd hn (hp n)
    cases a with
    | call u k =>
      unfold Fine.step at hs
      dsimp only at hs
      split at hs
      · cases k <;> cases hs <;> exact quiet u _ rfl (fun _ h => nomatch h) (none' fun m h => by rcases h with h | h | h <;> cases h)
      · cases hs
    | fetch u now ans =>
      unfold Fine.step at hs
      dsimp only at hs
      split at hs
      · cases ans <;> cases hs <;>
          exact quiet u _ rfl (fun _ h => by cases h; exact id) (none' fun m h => by rcases h with h | h | h <;> cases h)
      · cases hs
    | step u now =>
      have hs : go empty s u now = some (s', c, r) := hs
      unfold go at hs
      have hnow : ∀ x ∈ commits h, IsEnter x → timeOf x ≤ now := by
        intro x hx he
        have h1 := hc.1
        rw [List.filterMap_cons] at h1
        exact (List.pairwise_cons.1 h1).1 _ (ih.read x hx he)
      cases hq : s.pc u with
      | idle => rw [hq] at hs; cases hs
      | fetching => rw [hq] at hs; cases hs
      | enterGet | fetched | enterReset =>
        rw [hq] at hs
        simp only [Option.map_eq_some_iff] at hs
        obtain ⟨s1, h1, h2⟩ := hs
        cases h2
        unfold State.lock at h1
        split at h1
        · cases h1
          exact quiet u _ rfl (fun _ h => nomatch h) (none' fun m h => by rcases h with h | h | h <;> cases h)
        · cases h1
      | check =>
        rw [hq] at hs
        simp only [Option.some.injEq, Prod.mk.injEq] at hs
        obtain ⟨h1, h2, -⟩ := hs
        have hm : ∀ m, m = now → m ∈ (⟨.step u now, c, r⟩ :: h : List (Fine.Event α)).filterMap timeRead ∧
            ∀ x ∈ commits h, IsEnter x → timeOf x ≤ m := by
          rintro m rfl
          refine ⟨List.mem_filterMap.2 ⟨_, List.mem_cons_self, rfl⟩, hnow⟩
        split at h1 <;> subst h1 <;> refine quiet u _ rfl (fun _ h => by rw [← h2] at h; cases h) fun m h => hm m ?_ <;>
          rcases h with h | h | h <;> cases h <;> rfl
      | test n =>
        rw [hq] at hs
        simp only [Option.some.injEq, Prod.mk.injEq] at hs
        obtain ⟨h1, h2, -⟩ := hs
        obtain ⟨g1, g2⟩ := ih.last u n (.inl hq)
        have hm : ∀ m, m = n → m ∈ (⟨.step u now, c, r⟩ :: h : List (Fine.Event α)).filterMap timeRead ∧
            ∀ x ∈ commits h, IsEnter x → timeOf x ≤ m := by
          rintro m rfl
          exact ⟨times_mono g1, g2⟩
        split at h1 <;> subst h1 <;> refine quiet u _ rfl (fun _ h => by rw [← h2] at h; cases h) fun m h => hm m ?_ <;>
          rcases h with h | h | h <;> cases h <;> rfl
      | copy n =>
        rw [hq] at hs
        cases hs
        exact loud u n _ _ rfl (.inr (.inl hq)) rfl fun m h => by rcases h with h | h | h <;> cases h
      | clear n =>
        rw [hq] at hs
        cases hs
        exact loud u n _ _ rfl (.inr (.inr hq)) rfl fun m h => by rcases h with h | h | h <;> cases h
      | _ =>
        rw [hq] at hs
        cases hs
        exact quiet u _ rfl (fun _ h => by cases h <;> exact id) (none' fun m h => by rcases h with h | h | h <;> cases h)

/-- A fetch which was committed is an answer of the system. -/
theorem commit_fetch {empty : α} {h : List (Fine.Event α)} {s : Fine.State α} (hx : Fine.Exec empty h s) {t : Nat} {f : Int}
    {ans : Cache.Answer α} {o : Cache.Out α} (hm : (Cache.Action.fetch t f ans, o) ∈ commits h) :
    ∃ e ∈ h, e.action = .fetch t f ans := by
  induction hx with
  | start => cases hm
  | @next h s s' a c r hx hs ih =>
    rcases commits_cons hm with hm | hm
    · refine ⟨_, List.mem_cons_self, ?_⟩
      have hm : c = some (.fetch t f ans, o) := hm
      subst hm
      cases a with
      | call u k =>
        unfold Fine.step at hs
        dsimp only at hs
        split at hs
        · cases k <;> cases hs
        · cases hs
      | fetch u now ans =>
        unfold Fine.step at hs
        dsimp only at hs
        split at hs
        · cases ans <;> cases hs <;> rfl
        · cases hs
      | step u now =>
        exfalso
        have hs : go empty s u now = some (s', some (.fetch t f ans, o), r) := hs
        unfold go at hs
        cases hq : s.pc u with
        | enterGet | fetched | enterReset =>
          rw [hq] at hs
          simp only [Option.map_eq_some_iff] at hs
          obtain ⟨s1, h1, h2⟩ := hs
          cases h2
        | _ => rw [hq] at hs; cases hs
    · obtain ⟨e, he, h1⟩ := ih hm
      exact ⟨e, List.mem_cons_of_mem _ he, h1⟩

theorem fine_suffix {empty : α} {h1 h2 : List (Fine.Event α)} {s : Fine.State α} (hx : Fine.Exec empty (h1 ++ h2) s) :
    ∃ s', Fine.Exec empty h2 s' := by
  induction h1 generalizing s with
  | nil => exact ⟨s, hx⟩
  | cons e h1 ih =>
    cases hx with
    | next hx _ => exact ih hx

theorem fine_clock_suffix {h1 h2 : List (Fine.Event α)} (hc : Fine.Clock (h1 ++ h2)) : Fine.Clock h2 := by
  induction h1 with
  | nil => exact hc
  | cons e h1 ih => exact ih (fine_clock_tail hc)

theorem holdsList_mem {h : List (Spec.Event α)} {t : Nat} {l : α} {f : Int} (hh : HoldsList h t l f) :
    (Cache.Action.fetch t f (.list l), Cache.Out.nothing) ∈ h := by
  obtain ⟨h1, h2, rfl, -⟩ := hh
  simp

/-- **C107**: as long as the clock does not go back, a list which `get_local_addresses()` returns is one which the system
answered, before this, to some thread. The empty list which is in the cache while a thread asks the system is never returned,
however the accesses of the threads are interleaved. -/
theorem C107_answered {empty : α} {h : List (Fine.Event α)} {s : Fine.State α} {e : Fine.Event α}
    (hx : Fine.Exec empty (e :: h) s) (hc : Fine.Clock (e :: h)) {l : α} (he : e.ret = some (.returns (some l))) :
    ∃ x ∈ h, ∃ t f, x.action = .fetch t f (.list l) := by
  obtain ⟨h1, x, h2, b, rfl, -, hxc, -⟩ := C107_returns hx he
  have hc2 := fine_clock_suffix (fine_clock_tail hc)
  obtain ⟨s2, hx2⟩ := fine_suffix (h1 := e :: h1) (h2 := x :: h2) hx
  have hat := C107_atomic hx2
  have hcm : commits (x :: h2) = (b, .returns (some l)) :: commits h2 := by
    unfold commits
    rw [List.filterMap_cons, hxc]
  rw [hcm] at hat
  obtain ⟨s3, hx3⟩ := fine_suffix (h1 := [x]) (h2 := h2) hx2
  have key : ∀ t f, (Cache.Action.fetch t f (.list l), Cache.Out.nothing) ∈ commits h2 →
      ∃ y ∈ h1 ++ x :: h2, ∃ t f, y.action = .fetch t f (.list l) := by
    intro t f hm
    obtain ⟨y, hy, hya⟩ := commit_fetch hx3 hm
    exact ⟨y, List.mem_append_right _ (List.mem_cons_of_mem _ hy), t, f, hya⟩
  cases b with
  | enter t n =>
    have ht := times_exec hx2 hc2
    -- the time which was read before the transition
    cases hx2 with
    | @next _ s4 _ a c r hx4 hs4 =>
      have hxc : c = some (.enter t n, .returns (some l)) := hxc
      subst hxc
      have hpos : 0 < n := hc2.2 n (ht.read (.enter t n, .returns (some l)) (by rw [hcm]; exact List.mem_cons_self) trivial)
      have hq : s4.pc t = .copy n := by
        cases a with
        | call u k =>
          unfold Fine.step at hs4
          dsimp only at hs4
          split at hs4
          · cases k <;> cases hs4
          · cases hs4
        | fetch u now ans =>
          unfold Fine.step at hs4
          dsimp only at hs4
          split at hs4
          · cases ans <;> cases hs4
          · cases hs4
        | step u now =>
          have hs4 : go empty s4 u now = some (s2, some (.enter t n, .returns (some l)), r) := hs4
          unfold go at hs4
          cases hq : s4.pc u with
          | enterGet | fetched | enterReset =>
            rw [hq] at hs4
            simp only [Option.map_eq_some_iff] at hs4
            obtain ⟨s1, h1, h2⟩ := hs4
            cases h2
          | copy m =>
            rw [hq] at hs4
            simp only [Option.some.injEq, Prod.mk.injEq, Cache.Action.enter.injEq] at hs4
            obtain ⟨-, ⟨⟨rfl, rfl⟩, -⟩, -⟩ := hs4
            exact hq
          | _ => rw [hq] at hs4; cases hs4
      have hl := (times_exec hx4 (fine_clock_tail hc2)).last t n (.inr (.inl hq))
      obtain ⟨t', f, s0, ttl, ⟨g1, g2, hg, -, hh, -⟩, -⟩ := exec_hit_of hat hpos hl.2
      refine key t' f ?_
      rw [hg]
      exact List.mem_append_right _ (List.mem_cons_of_mem _ (holdsList_mem hh))
  | store t n =>
    obtain ⟨l', f, h3, hh⟩ := exec_store hat
    cases h3
    exact key t f (holdsList_mem hh)
  | fetch t n ans =>
    generalize abs s2 = z at hat
    cases hat with
    | next _ hst =>
      rw [Cache.step.eq_def] at hst
      dsimp only at hst
      split at hst
      · cases ans <;> cases hst
      · cases hst
  | reset n =>
    generalize abs s2 = z at hat
    cases hat with
    | next _ hst => cases hst
  | setTtl n d =>
    generalize abs s2 = z at hat
    cases hat with
    | next _ hst => cases hst

/-- A first thread asks the system, a second one comes while it does, and a third one finds the list in the cache. -/
example : ∃ h s, Fine.Exec 0 h s ∧ Fine.Clock h ∧ (h.head?.bind (·.ret)) = some (.returns (some 7)) := by
  refine ⟨_, _, run_exec (as := [.call 1 .get, .step 1 5, .step 1 5, .call 2 .get, .step 1 5, .step 1 5, .step 2 5, .step 2 5,
    .fetch 1 6 (.list 7), .step 2 6, .step 2 6, .step 1 6, .step 1 6, .step 1 6, .step 1 6, .step 1 6, .step 1 6, .step 1 6,
    .call 3 .get, .step 3 6, .step 3 6, .step 3 6, .step 3 6, .step 3 6, .step 3 6]) .start rfl, ?_, rfl⟩
  refine ⟨?_, ?_⟩ <;> decide

end Verif
