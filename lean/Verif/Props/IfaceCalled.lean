import Verif.Props.IfaceThreads

/-! Each call of a thread makes the transitions of the function which it calls (C107). -/

namespace Verif

open Fine

variable {α : Type}

namespace Fine

/-- The last function which the thread `t` called. -/
def lastCall (t : Nat) : List (Event α) → Option Call
  | [] => none
  | e :: h =>
    match e.action with
    | .call u k => if u = t then some k else lastCall t h
    | _ => lastCall t h

/-- The critical sections, and the question to the system, which belong to a call of the thread `t`. -/
def Makes (t : Nat) : Call → Cache.Action α → Prop
  | .get, a => (∃ now, a = .enter t now) ∨ (∃ now answer, a = .fetch t now answer) ∨ ∃ now, a = .store t now
  | .reset, a => ∃ now, a = .reset now
  | .setTtl n, a => ∃ now, a = .setTtl now n

/-- How the call can end: only `get_local_addresses()` returns a list or throws. -/
def Ends : Call → Cache.Out α → Prop
  | .get, o => o ≠ .nothing
  | _, o => o = .nothing

/-- The thread is in the function which it called. -/
def Inside (k : Call) : Pc α → Prop
  | .idle => False
  | .enterReset | .resetTimeout | .resetList | .wasReset => k = .reset
  | .setTtl n => k = .setTtl n
  | .leaving o => Ends k o
  | _ => k = .get

end Fine

theorem lastCall_other {t : Nat} {e : Fine.Event α} {h : List (Fine.Event α)} (he : e.action.thread ≠ t) :
    lastCall t (e :: h) = lastCall t h := by
  obtain ⟨a, c, r⟩ := e
  cases a with
  | call u k =>
    exact if_neg he
  | _ => rfl

theorem inside_exec {empty : α} {h : List (Fine.Event α)} {s : Fine.State α} (hx : Fine.Exec empty h s) (t : Nat) :
    s.pc t = .idle ∨ ∃ k, lastCall t h = some k ∧ Inside k (s.pc t) := by
  induction hx with
  | start => exact .inl rfl
  | @next h s s' a c r hx hs ih =>
    have moved : ∀ (u : Nat) (p : Fine.Pc α), a.thread = u → s'.pc = (s.move u p).pc →
        ((s.pc u = .idle ∨ ∃ k, lastCall u h = some k ∧ Inside k (s.pc u)) →
          p = .idle ∨ ∃ k, lastCall u (⟨a, c, r⟩ :: h) = some k ∧ Inside k p) →
        s'.pc t = .idle ∨ ∃ k, lastCall t (⟨a, c, r⟩ :: h) = some k ∧ Inside k (s'.pc t) := by
      intro u p h1 h2 h4
      rw [h2]
      show (if t = u then p else s.pc t) = _ ∨ ∃ k, _ ∧ Inside k (if t = u then p else s.pc t)
      by_cases e : t = u
      · subst e
        rw [if_pos rfl]
        exact h4 ih
      · rw [if_neg e, lastCall_other (fun h => e (h.symm.trans h1))]
        exact ih
    cases a with
    | call u k =>
      have hl : lastCall u (⟨.call u k, c, r⟩ :: h) = some k := if_pos rfl
      unfold Fine.step at hs
      dsimp only at hs
      split at hs
      · cases k <;> cases hs <;> exact moved u _ rfl rfl fun _ => .inr ⟨_, hl, rfl⟩
      · cases hs
    | fetch u now ans =>
      unfold Fine.step at hs
      dsimp only at hs
      split at hs
      · next hq =>
        have key (p : Fine.Pc α) (hp : Inside .get p) (hi : s.pc u = .idle ∨ ∃ k, lastCall u h = some k ∧ Inside k (s.pc u)) :
            p = .idle ∨ ∃ k, lastCall u h = some k ∧ Inside k p := by
          rw [hq] at hi
          rcases hi with hi | ⟨k, h1, h2⟩
          · cases hi
          · have h2 : k = .get := h2
            exact .inr ⟨k, h1, h2 ▸ hp⟩
        cases ans <;> cases hs
        · exact moved u _ rfl rfl fun hi => key _ rfl hi
        · exact moved u _ rfl rfl fun hi => key _ (fun h => nomatch h) hi
        · exact moved u _ rfl rfl fun hi => key _ (fun h => nomatch h) hi
      · cases hs
    | step u now =>
      have hs : go empty s u now = some (s', c, r) := hs
      have key (q p : Fine.Pc α) (hq : s.pc u = q) (hne : q ≠ .idle) (hp : ∀ k, Inside k q → Inside k p)
          (hi : s.pc u = .idle ∨ ∃ k, lastCall u h = some k ∧ Inside k (s.pc u)) :
          p = .idle ∨ ∃ k, lastCall u h = some k ∧ Inside k p := by
        rw [hq] at hi
        rcases hi with hi | ⟨k, h1, h2⟩
        · exact absurd hi hne
        · exact .inr ⟨k, h1, hp k h2⟩
      unfold go at hs
      cases hq : s.pc u with
      | idle => rw [hq] at hs; cases hs
      | fetching => rw [hq] at hs; cases hs
      | enterGet | fetched | enterReset =>
        rw [hq] at hs
        simp only [Option.map_eq_some_iff] at hs
        obtain ⟨s1, h1, h2⟩ := hs
        cases h2
        unfold State.lock at h1
        split at h1
        · cases h1
          exact moved u _ rfl rfl fun hi => key _ _ hq (fun h => nomatch h) (fun _ h => h) hi
        · cases h1
      | check | test =>
        rw [hq] at hs
        simp only [Option.some.injEq, Prod.mk.injEq] at hs
        obtain ⟨h1, -, -⟩ := hs
        split at h1 <;> subst h1 <;> exact moved u _ rfl rfl fun hi => key _ _ hq (fun h => nomatch h) (fun _ h => h) hi
      | copied | stored =>
        rw [hq] at hs
        cases hs
        exact moved u _ rfl rfl fun hi => key _ _ hq (fun h => nomatch h)
          (fun k (h : k = .get) => by subst h; exact fun h => nomatch h) hi
      | wasReset =>
        rw [hq] at hs
        cases hs
        exact moved u _ rfl rfl fun hi => key _ _ hq (fun h => nomatch h) (fun k (h : k = .reset) => by subst h; exact rfl) hi
      | setTtl n =>
        rw [hq] at hs
        cases hs
        exact moved u _ rfl rfl fun hi => key _ _ hq (fun h => nomatch h) (fun k (h : k = .setTtl n) => by subst h; exact rfl) hi
      | leaving =>
        rw [hq] at hs
        cases hs
        exact moved u _ rfl rfl fun _ => .inl rfl
      | _ =>
        rw [hq] at hs
        cases hs
        exact moved u _ rfl rfl fun hi => key _ _ hq (fun h => nomatch h) (fun _ h => h) hi

/-- **C107**: each critical section which takes effect, and each question to the system, is one of the function which this thread
called last: `get_local_addresses()` never resets, and the functions which reset and set the delay do nothing else. -/
theorem C107_called {empty : α} {h : List (Fine.Event α)} {s : Fine.State α} {e : Fine.Event α}
    (hx : Fine.Exec empty (e :: h) s) {a : Cache.Action α} {o : Cache.Out α} (he : e.commit = some (a, o)) :
    ∃ k, lastCall e.action.thread h = some k ∧ Makes e.action.thread k a := by
  cases hx with
  | @next _ s1 _ b c r hx hs =>
    cases he
    have hi := inside_exec hx b.thread
    show ∃ k, lastCall b.thread h = some k ∧ Makes b.thread k a
    cases b with
    | call u k =>
      unfold Fine.step at hs
      dsimp only at hs
      split at hs
      · cases k <;> cases hs
      · cases hs
    | fetch u now ans =>
      unfold Fine.step at hs
      dsimp only at hs
      split at hs
      · next hq =>
        rw [show s1.pc (Fine.Action.fetch u now ans).thread = _ from hq] at hi
        rcases hi with hi | ⟨k, h1, h2⟩
        · cases hi
        · have h2 : k = .get := h2
          subst h2
          refine ⟨_, h1, ?_⟩
          cases ans <;> cases hs <;> exact .inr (.inl ⟨now, _, rfl⟩)
      · cases hs
    | step u now =>
      have hs : go empty s1 u now = some (s, some (a, o), r) := hs
      have hi : s1.pc u = .idle ∨ ∃ k, lastCall u h = some k ∧ Inside k (s1.pc u) := hi
      show ∃ k, lastCall u h = some k ∧ Makes u k a
      unfold go at hs
      cases hq : s1.pc u with
      | enterGet | fetched | enterReset =>
        rw [hq] at hs
        simp only [Option.map_eq_some_iff] at hs
        obtain ⟨s1, h1, h2⟩ := hs
        cases h2
      | copy n | clear n =>
        rw [hq] at hs hi
        cases hs
        rcases hi with hi | ⟨k, h1, h2⟩
        · cases hi
        · have h2 : k = .get := h2
          subst h2
          exact ⟨_, h1, .inl ⟨n, rfl⟩⟩
      | storeTtl l n =>
        rw [hq] at hs hi
        cases hs
        rcases hi with hi | ⟨k, h1, h2⟩
        · cases hi
        · have h2 : k = .get := h2
          subst h2
          exact ⟨_, h1, .inr (.inr ⟨n, rfl⟩)⟩
      | resetTimeout =>
        rw [hq] at hs hi
        cases hs
        rcases hi with hi | ⟨k, h1, h2⟩
        · cases hi
        · have h2 : k = .reset := h2
          subst h2
          exact ⟨_, h1, now, rfl⟩
      | setTtl n =>
        rw [hq] at hs hi
        cases hs
        rcases hi with hi | ⟨k, h1, h2⟩
        · cases hi
        · have h2 : k = .setTtl n := h2
          subst h2
          exact ⟨_, h1, now, rfl⟩
      | _ => rw [hq] at hs; cases hs

/-- **C107**: a call which ends made a transition of the function which was called, during this call, and the call ends with what this
transition decided: a list, no list or an exception for `get_local_addresses()`, nothing for the two other functions. -/
theorem C107_ends {empty : α} {h : List (Fine.Event α)} {s : Fine.State α} {e : Fine.Event α}
    (hx : Fine.Exec empty (e :: h) s) {o : Cache.Out α} (he : e.ret = some o) :
    ∃ k h1 x h2 a, lastCall e.action.thread h = some k ∧ Ends k o ∧ h = h1 ++ x :: h2 ∧ x.action.thread = e.action.thread
      ∧ x.commit = some (a, o) ∧ Makes e.action.thread k a
      ∧ (∀ y ∈ h1, ∀ k', y.action ≠ .call e.action.thread k') := by
  obtain ⟨h1, x, h2, a, h3, hxt, hxc, hn⟩ := C107_returns hx he
  have hno : ∀ y ∈ h1, ∀ k', y.action ≠ .call e.action.thread k' := fun y hy k' hk => by
    obtain ⟨⟨now, h4⟩, _⟩ := hn y hy (by rw [hk]; rfl)
    rw [hk] at h4
    cases h4
  cases hx with
  | @next _ s1 _ b c r hx hs =>
    cases he
    have hpc := ret_leaving hs
    obtain ⟨s2, hx2⟩ := fine_suffix (h1 := h1) (h2 := x :: h2) (h3 ▸ hx)
    obtain ⟨k, g1, g2⟩ := C107_called hx2 hxc
    have hlast : lastCall b.thread h = some k := by
      rw [h3]
      have hx0 : lastCall b.thread (x :: h2) = some k := by
        rw [← g1, hxt]
        obtain ⟨xa, xc, xr⟩ := x
        cases xa with
        | call u k' =>
          cases hx2 with
          | next _ hs2 =>
            cases hxc
            unfold Fine.step at hs2
            dsimp only at hs2
            split at hs2
            · cases k' <;> cases hs2
            · cases hs2
        | _ => rfl
      clear h3 hx2 hn
      induction h1 with
      | nil => exact hx0
      | cons y h1 ih =>
        rw [← ih (fun z hz => hno z (List.mem_cons_of_mem _ hz))]
        obtain ⟨ya, yc, yr⟩ := y
        cases ya with
        | call u k' =>
          show (if u = b.thread then _ else _) = _
          rw [if_neg fun h => hno _ List.mem_cons_self k' (by show Fine.Action.call u k' = .call b.thread k'; rw [h])]
          rfl
        | _ => rfl
    rcases inside_exec hx b.thread with hi | ⟨k', i1, i2⟩
    · rw [hpc] at hi
      cases hi
    · rw [hlast] at i1
      cases i1
      rw [hpc] at i2
      exact ⟨k, h1, x, h2, a, hlast, i2, h3, hxt, hxc, hxt ▸ g2, hno⟩

/-- A thread sets the delay while another one asks the system. -/
example : ∃ h s, Fine.Exec 0 h s ∧ (h.head?.bind (·.ret)) = some .nothing ∧ lastCall 2 h = some (.setTtl 9) ∧ lastCall 1 h = some .get := by
  refine ⟨_, _, run_exec (as := [.call 1 .get, .step 1 5, .step 1 5, .call 2 (.setTtl 9), .step 1 5, .step 1 5, .step 2 5, .step 2 5])
    .start rfl, rfl, rfl, rfl⟩

end Verif
