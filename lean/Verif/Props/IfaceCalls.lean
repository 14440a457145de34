import Verif.SpecIfaceCalls
import Verif.Props.IfaceThreads

/-!
# C111: the calls of the threads which use the cache of the interfaces
-/

namespace Verif

open Spec

variable {α : Type}

namespace Fine

/-! ## The numbers of the events -/

theorem at_length {h : List (Event α)} {i : Nat} {e : Event α} (ha : At h i e) : i < h.length := by
  unfold At at ha
  have := (List.getElem?_eq_some_iff.1 ha).1
  rwa [List.length_reverse] at this

theorem at_cons {h : List (Event α)} {i : Nat} {e x : Event α} (ha : At h i e) : At (x :: h) i e := by
  unfold At at ha ⊢
  rw [List.reverse_cons, List.getElem?_append_left (List.getElem?_eq_some_iff.1 ha).1]
  exact ha

theorem at_last (h : List (Event α)) (x : Event α) : At (x :: h) h.length x := by
  unfold At
  rw [List.reverse_cons, List.getElem?_append_right (by simp)]
  simp

theorem at_of_cons {h : List (Event α)} {i : Nat} {e x : Event α} (ha : At (x :: h) i e) :
    At h i e ∨ (i = h.length ∧ e = x) := by
  have hl := at_length ha
  rw [List.length_cons] at hl
  unfold At at ha ⊢
  rw [List.reverse_cons] at ha
  by_cases hi : i < h.length
  · rw [List.getElem?_append_left (by simpa using hi)] at ha
    exact .inl ha
  · have e1 : i = h.length := by omega
    subst e1
    rw [List.getElem?_append_right (by simp)] at ha
    simp at ha
    exact .inr ⟨rfl, ha.symm⟩

theorem at_append {h g : List (Event α)} {i : Nat} {e : Event α} (ha : At g i e) : At (h ++ g) i e := by
  induction h with
  | nil => exact ha
  | cons x h ih => exact at_cons ih

theorem at_of_append {h g : List (Event α)} {i : Nat} {e : Event α} (ha : At (h ++ g) i e) (hi : i < g.length) : At g i e := by
  induction h with
  | nil => exact ha
  | cons x h ih =>
    rcases at_of_cons (h := h ++ g) ha with ha | ⟨hl, -⟩
    · exact ih ha
    · rw [List.length_append] at hl
      omega

theorem at_unique {h : List (Event α)} {i : Nat} {e x : Event α} (ha : At h i e) (hb : At h i x) : e = x := by
  unfold At at ha hb
  rw [ha] at hb
  exact Option.some.inj hb

theorem at_mem {h : List (Event α)} {e : Event α} (he : e ∈ h) : ∃ i, At h i e := by
  obtain ⟨i, hi, h1⟩ := List.getElem_of_mem (List.mem_reverse.2 he)
  exact ⟨i, List.getElem?_eq_some_iff.2 ⟨hi, h1⟩⟩

/-- The history up to an event. -/
theorem at_split {h : List (Event α)} {i : Nat} {e : Event α} (ha : At h i e) : ∃ h1 h2, h = h1 ++ e :: h2 ∧ h2.length = i := by
  induction h with
  | nil => exact absurd (at_length ha) (Nat.not_lt_zero i)
  | cons x h ih =>
    rcases at_of_cons ha with ha | ⟨rfl, rfl⟩
    · obtain ⟨h1, h2, rfl, h3⟩ := ih ha
      exact ⟨x :: h1, h2, rfl, h3⟩
    · exact ⟨[], h, rfl, rfl⟩

theorem at_of_split (h1 h2 : List (Event α)) (e : Event α) : At (h1 ++ e :: h2) h2.length e := at_append (at_last h2 e)

/-! ## The call in which a thread is -/

/-- The thread `t` is in the call which it made at `i`. -/
structure Cur (h : List (Event α)) (t i : Nat) (c : Call) : Prop where
  begins : ∃ e, At h i e ∧ e.action = .call t c
  since : ∀ q e, i < q → At h q e → e.action.thread = t → e.ret = none ∧ ∀ k, e.action ≠ .call t k

/-- What a thread did in its call. -/
def Progress (h : List (Event α)) (t i : Nat) (c : Call) : Pc α → Prop
  | .idle => False
  | .enterGet | .check | .cleared | .fetching | .copied _ => c = .get
  | .test n | .copy n | .clear n => c = .get ∧ ∃ q, i < q ∧ ActsAt h t n q
  | .fetched l | .storeTime l => c = .get ∧ ∃ q f, i < q ∧ Answered h t l f q
  | .storeTtl l n => c = .get ∧ ∃ q f r, i < q ∧ Answered h t l f q ∧ q < r ∧ ActsAt h t n r
  | .storeTimeout _ _ | .storeList _ | .storeCopy | .stored _ => c = .get
  | .enterReset | .resetTimeout => c = .reset
  | .resetList | .wasReset => c = .reset ∧ ∃ q e z o, i < q ∧ At h q e ∧ e.commit = some (.reset z, o)
  | .setTtl n => c = .setTtl n
  | .leaving _ => c = .reset → ∃ q e z o, i < q ∧ At h q e ∧ e.commit = some (.reset z, o)

/-- All the calls of the thread are over. -/
def Over (h : List (Event α)) (t : Nat) : Prop :=
  ∀ i e c, At h i e → e.action = .call t c → ∃ q y, i < q ∧ At h q y ∧ y.action.thread = t ∧ y.ret ≠ none

/-- The place of a thread and its call. -/
def Place (h : List (Event α)) (t : Nat) (p : Pc α) : Prop :=
  (p = .idle ∧ Over h t) ∨ ∃ i c, Cur h t i c ∧ Progress h t i c p

theorem actsAt_cons {h : List (Event α)} {t i : Nat} {n : Int} {x : Event α} (ha : ActsAt h t n i) : ActsAt (x :: h) t n i :=
  ha.imp fun _ h => ⟨at_cons h.1, h.2⟩

theorem answered_cons {h : List (Event α)} {t i : Nat} {l : α} {n : Int} {x : Event α} (ha : Answered h t l n i) :
    Answered (x :: h) t l n i :=
  ha.imp fun _ h => ⟨at_cons h.1, h.2⟩

theorem progress_cons {h : List (Event α)} {t i : Nat} {c : Call} {p : Pc α} {x : Event α} (hp : Progress h t i c p) :
    Progress (x :: h) t i c p := by
  cases p with
  | test | copy | clear =>
    obtain ⟨h1, q, h2, h3⟩ := hp
    exact ⟨h1, q, h2, actsAt_cons h3⟩
  | fetched | storeTime =>
    obtain ⟨h1, q, f, h2, h3⟩ := hp
    exact ⟨h1, q, f, h2, answered_cons h3⟩
  | storeTtl =>
    obtain ⟨h1, q, f, r, h2, h3, h4, h5⟩ := hp
    exact ⟨h1, q, f, r, h2, answered_cons h3, h4, actsAt_cons h5⟩
  | resetList | wasReset =>
    obtain ⟨h1, q, e, z, o, h2, h3, h4⟩ := hp
    exact ⟨h1, q, e, z, o, h2, at_cons h3, h4⟩
  | leaving =>
    intro hc
    obtain ⟨q, e, z, o, h2, h3, h4⟩ := hp hc
    exact ⟨q, e, z, o, h2, at_cons h3, h4⟩
  | _ => exact hp

theorem cur_cons {h : List (Event α)} {t i : Nat} {c : Call} {x : Event α} (hc : Cur h t i c)
    (hx : x.action.thread = t → x.ret = none ∧ ∀ k, x.action ≠ .call t k) : Cur (x :: h) t i c := by
  refine ⟨hc.begins.imp fun _ h => ⟨at_cons h.1, h.2⟩, fun q e hq ha ht => ?_⟩
  rcases at_of_cons ha with ha | ⟨-, rfl⟩
  · exact hc.since q e hq ha ht
  · exact hx ht

theorem over_cons {h : List (Event α)} {t : Nat} {x : Event α} (ho : Over h t) (hx : ∀ c, x.action ≠ .call t c) :
    Over (x :: h) t := by
  intro i e c ha he
  rcases at_of_cons ha with ha | ⟨-, rfl⟩
  · obtain ⟨q, y, h1, h2, h3⟩ := ho i e c ha he
    exact ⟨q, y, h1, at_cons h2, h3⟩
  · exact absurd he (hx c)

/-- Another thread moves. -/
theorem place_other {h : List (Event α)} {t : Nat} {p : Pc α} {x : Event α} (hx : x.action.thread ≠ t) (hp : Place h t p) :
    Place (x :: h) t p := by
  rcases hp with ⟨h1, h2⟩ | ⟨i, c, h1, h2⟩
  · refine .inl ⟨h1, over_cons h2 fun c hc => hx ?_⟩
    rw [hc]
    rfl
  · exact .inr ⟨i, c, cur_cons h1 fun h => absurd h hx, progress_cons h2⟩

/-- The thread itself goes on in its call. -/
theorem place_on {h : List (Event α)} {t : Nat} {p p' : Pc α} {x : Event α} (hp : Place h t p) (hi : p ≠ .idle)
    (hr : x.ret = none) (hk : ∀ k, x.action ≠ .call t k)
    (hs : ∀ i c, i < h.length → Progress h t i c p → Progress (x :: h) t i c p') : Place (x :: h) t p' := by
  rcases hp with ⟨h1, h2⟩ | ⟨i, c, h1, h2⟩
  · exact absurd h1 hi
  · obtain ⟨e, he, -⟩ := h1.begins
    exact .inr ⟨i, c, cur_cons h1 fun _ => ⟨hr, hk⟩, hs i c (at_length he) h2⟩

/-- The thread makes a call. -/
theorem place_call {h : List (Event α)} {t : Nat} {p' : Pc α} {x : Event α} {c : Call} (hx : x.action = .call t c)
    (hs : Progress (x :: h) t h.length c p') : Place (x :: h) t p' := by
  refine .inr ⟨h.length, c, ⟨⟨x, at_last h x, hx⟩, fun q e hq ha _ => ?_⟩, hs⟩
  have := at_length ha
  rw [List.length_cons] at this
  omega

theorem place_exec {empty : α} {h : List (Event α)} {s : State α} (hx : Exec empty h s) (t : Nat) : Place h t (s.pc t) := by
  induction hx with
  | start => exact .inl ⟨rfl, fun i e c ha => absurd (at_length ha) (Nat.not_lt_zero i)⟩
  | @next h s s' a c r hx hs ih =>
    have moved : ∀ (u : Nat) (p : Pc α), a.thread = u → s'.pc = (s.move u p).pc →
        (Place h u (s.pc u) → Place (⟨a, c, r⟩ :: h) u p) → Place (⟨a, c, r⟩ :: h) t (s'.pc t) := by
      intro u p h1 h2 h3
      rw [h2]
      show Place _ t (if t = u then p else s.pc t)
      split
      · next e => subst e; exact h3 ih
      · next e => exact place_other (fun h => e (h.symm.trans h1)) ih
    cases a with
    | call u k =>
      unfold step at hs
      dsimp only at hs
      split at hs
      · cases k <;> cases hs <;> exact moved u _ rfl rfl fun _ => place_call rfl rfl
      · cases hs
    | fetch u now ans =>
      unfold step at hs
      dsimp only at hs
      split at hs
      · next hq =>
        have hi : s.pc u ≠ .idle := by rw [hq]; exact fun h => nomatch h
        cases ans <;> cases hs
        · refine moved u _ rfl rfl fun hp => place_on hp hi rfl (fun _ h => nomatch h) fun i c hic h1 => ?_
          rw [hq] at h1
          exact ⟨h1, h.length, now, hic, _, at_last h _, rfl⟩
        · refine moved u _ rfl rfl fun hp => place_on hp hi rfl (fun _ h => nomatch h) fun i c hic h1 => ?_
          rw [hq] at h1
          intro h2
          rw [show c = .get from h1] at h2
          cases h2
        · refine moved u _ rfl rfl fun hp => place_on hp hi rfl (fun _ h => nomatch h) fun i c hic h1 => ?_
          rw [hq] at h1
          intro h2
          rw [show c = .get from h1] at h2
          cases h2
      · cases hs
    | step u now =>
      have hs : go empty s u now = some (s', c, r) := hs
      unfold go at hs
      cases hq : s.pc u with
      | idle => rw [hq] at hs; cases hs
      | fetching => rw [hq] at hs; cases hs
      | enterGet | fetched | enterReset =>
        have hi : s.pc u ≠ .idle := by rw [hq]; exact fun h => nomatch h
        rw [hq] at hs
        simp only [Option.map_eq_some_iff] at hs
        obtain ⟨s1, h1, h2⟩ := hs
        cases h2
        unfold State.lock at h1
        split at h1
        · cases h1
          refine moved u _ rfl rfl fun hp => place_on hp hi rfl (fun _ h => nomatch h) fun i c hic h1 => ?_
          rw [hq] at h1
          exact progress_cons h1
        · cases h1
      | check =>
        have hi : s.pc u ≠ .idle := by rw [hq]; exact fun h => nomatch h
        rw [hq] at hs
        simp only [Option.some.injEq, Prod.mk.injEq] at hs
        obtain ⟨h1, h2, h3⟩ := hs
        split at h1 <;> subst h1 h2 h3 <;>
          refine moved u _ rfl rfl fun hp => place_on hp hi rfl (fun _ h => nomatch h) fun i c hic h1 => ?_ <;> rw [hq] at h1 <;>
          exact ⟨h1, h.length, hic, _, at_last h _, rfl⟩
      | test n =>
        have hi : s.pc u ≠ .idle := by rw [hq]; exact fun h => nomatch h
        rw [hq] at hs
        simp only [Option.some.injEq, Prod.mk.injEq] at hs
        obtain ⟨h1, h2, h3⟩ := hs
        split at h1 <;> subst h1 h2 h3 <;>
          refine moved u _ rfl rfl fun hp => place_on hp hi rfl (fun _ h => nomatch h) fun i c hic h1 => ?_ <;> rw [hq] at h1 <;>
          exact progress_cons (p := .test n) h1
      | copy | clear =>
        have hi : s.pc u ≠ .idle := by rw [hq]; exact fun h => nomatch h
        rw [hq] at hs
        cases hs
        refine moved u _ rfl rfl fun hp => place_on hp hi rfl (fun _ h => nomatch h) fun i c hic h1 => ?_
        rw [hq] at h1
        exact h1.1
      | cleared | storeTimeout | storeList | storeCopy =>
        have hi : s.pc u ≠ .idle := by rw [hq]; exact fun h => nomatch h
        rw [hq] at hs
        cases hs
        refine moved u _ rfl rfl fun hp => place_on hp hi rfl (fun _ h => nomatch h) fun i c hic h1 => ?_
        rw [hq] at h1
        exact h1
      | storeTime l =>
        have hi : s.pc u ≠ .idle := by rw [hq]; exact fun h => nomatch h
        rw [hq] at hs
        cases hs
        refine moved u _ rfl rfl fun hp => place_on hp hi rfl (fun _ h => nomatch h) fun i c hic h1 => ?_
        rw [hq] at h1
        obtain ⟨g1, q, f, g2, g3⟩ := h1
        have g4 := g3
        obtain ⟨e, ge, -⟩ := g4
        exact ⟨g1, q, f, h.length, g2, answered_cons g3, at_length ge, _, at_last h _, rfl⟩
      | storeTtl =>
        have hi : s.pc u ≠ .idle := by rw [hq]; exact fun h => nomatch h
        rw [hq] at hs
        cases hs
        refine moved u _ rfl rfl fun hp => place_on hp hi rfl (fun _ h => nomatch h) fun i c hic h1 => ?_
        rw [hq] at h1
        exact h1.1
      | copied | stored =>
        have hi : s.pc u ≠ .idle := by rw [hq]; exact fun h => nomatch h
        rw [hq] at hs
        cases hs
        refine moved u _ rfl rfl fun hp => place_on hp hi rfl (fun _ h => nomatch h) fun i c hic h1 => ?_
        rw [hq] at h1
        intro h2
        rw [show c = .get from h1] at h2
        cases h2
      | resetTimeout =>
        have hi : s.pc u ≠ .idle := by rw [hq]; exact fun h => nomatch h
        rw [hq] at hs
        cases hs
        refine moved u _ rfl rfl fun hp => place_on hp hi rfl (fun _ h => nomatch h) fun i c hic h1 => ?_
        rw [hq] at h1
        exact ⟨h1, h.length, _, now, .nothing, hic, at_last h _, rfl⟩
      | resetList =>
        have hi : s.pc u ≠ .idle := by rw [hq]; exact fun h => nomatch h
        rw [hq] at hs
        cases hs
        refine moved u _ rfl rfl fun hp => place_on hp hi rfl (fun _ h => nomatch h) fun i c hic h1 => ?_
        rw [hq] at h1
        exact progress_cons (p := .resetList) h1
      | wasReset =>
        have hi : s.pc u ≠ .idle := by rw [hq]; exact fun h => nomatch h
        rw [hq] at hs
        cases hs
        refine moved u _ rfl rfl fun hp => place_on hp hi rfl (fun _ h => nomatch h) fun i c hic h1 => ?_
        rw [hq] at h1
        exact fun _ => (progress_cons (p := .wasReset) h1).2
      | setTtl =>
        have hi : s.pc u ≠ .idle := by rw [hq]; exact fun h => nomatch h
        rw [hq] at hs
        cases hs
        refine moved u _ rfl rfl fun hp => place_on hp hi rfl (fun _ h => nomatch h) fun i c hic h1 => ?_
        rw [hq] at h1
        intro h2
        rw [show c = .setTtl _ from h1] at h2
        cases h2
      | leaving o =>
        rw [hq] at hs
        cases hs
        refine moved u _ rfl rfl fun hp => .inl ⟨rfl, fun i e c ha he => ?_⟩
        rcases at_of_cons ha with ha | ⟨-, rfl⟩
        · exact ⟨h.length, _, at_length ha, at_last h _, rfl, fun h => nomatch h⟩
        · cases he

/-! ## The transitions of the coarse model -/

theorem commit_split {h : List (Event α)} {k1 k2 : List (Spec.Event α)} {x : Spec.Event α} (hk : commits h = k1 ++ x :: k2) :
    ∃ h1 e h2, h = h1 ++ e :: h2 ∧ e.commit = some x ∧ commits h1 = k1 ∧ commits h2 = k2 := by
  unfold commits at hk
  obtain ⟨l1, l2, rfl, h1, h2⟩ := List.filterMap_eq_append_iff.1 hk
  obtain ⟨l3, e, l4, rfl, h3, h4, h5⟩ := List.filterMap_eq_cons_iff.1 h2
  refine ⟨l1 ++ l3, e, l4, by simp, h4, ?_, h5⟩
  unfold commits
  rw [List.filterMap_append, h1, List.filterMap_eq_nil_iff.2 h3, List.append_nil]

/-- Where a thread was when a transition of the coarse model took effect. -/
def Committed (s : State α) (a : Action α) : Cache.Action α → Cache.Out α → Prop
  | .enter t n, o => a.thread = t ∧ ((s.pc t = .copy n ∧ o = .returns s.globals.list) ∨ (s.pc t = .clear n ∧ o = .nothing))
  | .fetch t f ans, o => a = .fetch t f ans ∧ ∀ l, o ≠ .returns (some l)
  | .store t n, o => a.thread = t ∧ ∃ l, s.pc t = .storeTtl l n ∧ o = .returns (some l)
  | .reset _, o => o = .nothing
  | .setTtl _ n, o => o = .nothing ∧ s.pc a.thread = .setTtl n

theorem committed {empty : α} {s s' : State α} {a : Action α} {b : Cache.Action α} {o : Cache.Out α} {r : Option (Cache.Out α)}
    (hs : step empty s a = some (s', some (b, o), r)) : Committed s a b o := by
  cases a with
  | call u k =>
    unfold step at hs
    dsimp only at hs
    split at hs
    · cases k <;> cases hs
    · cases hs
  | fetch u now ans =>
    unfold step at hs
    dsimp only at hs
    split at hs
    · cases ans <;> cases hs <;> exact ⟨rfl, fun _ h => nomatch h⟩
    · cases hs
  | step u now =>
    have hs : go empty s u now = some (s', some (b, o), r) := hs
    unfold go at hs
    cases hq : s.pc u with
    | enterGet | fetched | enterReset =>
      rw [hq] at hs
      simp only [Option.map_eq_some_iff] at hs
      obtain ⟨s1, h1, h2⟩ := hs
      cases h2
    | copy n => rw [hq] at hs; cases hs; exact ⟨rfl, .inl ⟨hq, rfl⟩⟩
    | clear n => rw [hq] at hs; cases hs; exact ⟨rfl, .inr ⟨hq, rfl⟩⟩
    | storeTtl l n => rw [hq] at hs; cases hs; exact ⟨rfl, l, hq, rfl⟩
    | resetTimeout => rw [hq] at hs; cases hs; rfl
    | setTtl n => rw [hq] at hs; cases hs; exact ⟨rfl, hq⟩
    | _ => rw [hq] at hs; cases hs

/-- An event and what came before it. -/
theorem exec_at {empty : α} {h1 h2 : List (Event α)} {e : Event α} {s : State α} (hx : Exec empty (h1 ++ e :: h2) s) :
    ∃ s1 s2, Exec empty h2 s1 ∧ step empty s1 e.action = some (s2, e.commit, e.ret) ∧ Exec empty (e :: h2) s2 := by
  obtain ⟨s2, hx2⟩ := fine_suffix hx
  have hx3 := hx2
  cases hx3 with
  | @next _ s1 _ a c r hx1 hs => exact ⟨s1, s2, hx1, hs, hx2⟩

/-- The call in which a thread is, is the last one which it made and did not leave. -/
theorem cur_is {empty : α} {h : List (Event α)} {s : State α} (hx : Exec empty h s) {t i k : Nat} {c c' : Call} (hc : Cur h t i c)
    (hk : ∃ e, At h k e ∧ e.action = .call t c')
    (hb : ∀ q e, k < q → At h q e → e.action.thread = t → e.ret = none) : i = k ∧ c = c' := by
  obtain ⟨e, he, hea⟩ := hk
  obtain ⟨x, hxi, hxa⟩ := hc.begins
  rcases Nat.lt_trichotomy k i with hki | hki | hki
  · exfalso
    obtain ⟨h1, h2, rfl, rfl⟩ := at_split hxi
    obtain ⟨s1, s2, hx1, hs, -⟩ := exec_at hx
    have hp := place_exec hx1 t
    have hidle : s1.pc t = .idle := by
      rw [hxa] at hs
      unfold step at hs
      dsimp only at hs
      split at hs
      · assumption
      · cases hs
    rw [hidle] at hp
    rcases hp with ⟨-, ho⟩ | ⟨_, _, _, h⟩
    · have he2 : At h2 k e := by
        have : At ((h1 ++ [x]) ++ h2) k e := by simpa using he
        exact at_of_append this hki
      obtain ⟨q, y, h3, h4, h5, h6⟩ := ho k e c' he2 hea
      have : At ((h1 ++ [x]) ++ h2) q y := at_append h4
      exact h6 (hb q y h3 (by simpa using this) h5)
    · exact h
  · subst hki
    have := at_unique he hxi
    subst this
    rw [hea] at hxa
    cases hxa
    exact ⟨rfl, rfl⟩
  · exact absurd hea ((hc.since k e hki he (by rw [hea]; rfl)).2 c')

/-- A later event. -/
theorem at_left {h1 h2 : List (Event α)} {e x : Event α} {i : Nat} (ha : At (h1 ++ x :: h2) i e) (hi : h2.length < i) : e ∈ h1 := by
  induction h1 with
  | nil =>
    have := at_length ha
    simp only [List.nil_append, List.length_cons] at this
    omega
  | cons y h1 ih =>
    rcases at_of_cons (h := h1 ++ x :: h2) ha with ha | ⟨-, rfl⟩
    · exact List.mem_cons_of_mem _ (ih ha)
    · exact List.mem_cons_self

/-- An earlier event. -/
theorem at_right {h1 h2 : List (Event α)} {e x : Event α} {i : Nat} (ha : At (h1 ++ x :: h2) i e) (hi : i < h2.length) :
    At h2 i e := by
  have : At ((h1 ++ [x]) ++ h2) i e := by simpa using ha
  exact at_of_append this hi

theorem at_grow {h1 h2 : List (Event α)} {e x : Event α} {i : Nat} (ha : At h2 i e) : At (h1 ++ x :: h2) i e :=
  at_append (at_cons ha)

theorem answered_grow {h1 h2 : List (Event α)} {x : Event α} {t i : Nat} {l : α} {n : Int} (ha : Answered h2 t l n i) :
    Answered (h1 ++ x :: h2) t l n i :=
  ha.imp fun _ h => ⟨at_grow h.1, h.2⟩

theorem actsAt_grow {h1 h2 : List (Event α)} {x : Event α} {t i : Nat} {n : Int} (ha : ActsAt h2 t n i) :
    ActsAt (h1 ++ x :: h2) t n i :=
  ha.imp fun _ h => ⟨at_grow h.1, h.2⟩

theorem ttlGiven_grow {h1 h2 : List (Event α)} {x : Event α} {n i : Nat} (ha : TtlGiven h2 n i) : TtlGiven (h1 ++ x :: h2) n i :=
  ha.imp id fun ⟨j, e, t, h1, h2, h3⟩ => ⟨j, e, t, h1, at_grow h2, h3⟩

theorem ttlOf_given {k : List (Spec.Event α)} : ttlOf k = 300 ∨ ∃ z o, (Cache.Action.setTtl z (ttlOf k), o) ∈ k := by
  induction k with
  | nil => exact .inl rfl
  | cons x k ih =>
    obtain ⟨a, o⟩ := x
    have up : ttlOf ((a, o) :: k) = ttlOf k → ttlOf ((a, o) :: k) = 300 ∨
        ∃ z o', (Cache.Action.setTtl z (ttlOf ((a, o) :: k)), o') ∈ (a, o) :: k := by
      intro e
      rw [e]
      exact ih.imp id fun ⟨z, o, h⟩ => ⟨z, o, List.mem_cons_of_mem _ h⟩
    cases a with
    | setTtl z n => exact .inr ⟨z, o, List.mem_cons_self⟩
    | _ => exact up rfl

/-- The TTL in force was given. -/
theorem ttl_given {empty : α} {h : List (Event α)} {s : State α} (hx : Exec empty h s) :
    TtlGiven h (ttlOf (commits h)) h.length := by
  rcases ttlOf_given (k := commits h) with e | ⟨z, o, hm⟩
  · exact .inl e
  · obtain ⟨k1, k2, hk⟩ := List.append_of_mem hm
    obtain ⟨h1, e, h2, rfl, he, -, -⟩ := commit_split hk
    obtain ⟨s1, s2, hx1, hs, -⟩ := exec_at hx
    rw [he] at hs
    have hc := (committed hs).2
    generalize ttlOf (commits (h1 ++ e :: h2)) = ttl at hc ⊢
    rcases place_exec hx1 e.action.thread with ⟨hp, -⟩ | ⟨i, c, hcur, hp⟩
    · rw [hc] at hp
      cases hp
    · rw [hc] at hp
      obtain ⟨y, hy, hya⟩ := hcur.begins
      refine .inr ⟨i, y, e.action.thread, ?_, at_grow hy, ?_⟩
      · have := at_length hy
        simp only [List.length_append, List.length_cons]
        omega
      · rw [hya, show c = .setTtl ttl from hp]

/-- What is behind a list which a call returns. -/
def Origin (h : List (Event α)) (t k m : Nat) (l : α) : Prop :=
  (∃ p f, k < p ∧ p < m ∧ Answered h t l f p) ∨
    ∃ v f s0 n ttl p q w d r, p < q ∧ q < w ∧ w < d ∧ k < r ∧ r < d ∧ d < m ∧ Answered h v l f p ∧ ActsAt h v s0 q ∧ ActsAt h t n r ∧
      n ≤ s0 + (ttl : Nat) ∧ TtlGiven h ttl w ∧ (∃ e o, At h w e ∧ e.commit = some (.store v s0, o)) ∧
      (∀ x e, p < x → x < w → At h x e → e.action.thread = v → e.ret = none) ∧
      ∀ x e z o, w < x → x < d → At h x e → e.commit ≠ some (.reset z, o)

theorem origin {empty : α} {h : List (Event α)} {s : State α} (hx : Exec empty h s) (hc : Clock h) {t k m : Nat} {l : α}
    (hg : CallOf h t .get k m (.returns (some l))) : Origin h t k m l := by
  obtain ⟨e, hem, het, her⟩ := hg.ends
  obtain ⟨a, g, rfl, rfl⟩ := at_split hem
  obtain ⟨s1, s2, hx1, hs1, hx2⟩ := exec_at hx
  have hc1 : Clock g := fine_clock_suffix (h1 := a ++ [e]) (by simpa using hc)
  obtain ⟨h1, x, h2, b, hgx, hxt, hxc, hn⟩ := C107_returns hx2 her
  rw [het] at hxt hn
  subst hgx
  obtain ⟨s3, s4, hx3, hs3, hx4⟩ := exec_at hx1
  rw [hxc] at hs3
  have hcm := committed hs3
  have hlen : (h1 ++ x :: h2).length = h1.length + (h2.length + 1) := by simp
  -- the call began before
  obtain ⟨y, hyk, hya⟩ := hg.begins
  have hyk' : At (h1 ++ x :: h2) k y := at_right hyk hg.order
  have hkd : k < h2.length := by
    rcases Nat.lt_trichotomy k h2.length with h | h | h
    · exact h
    · exfalso
      subst h
      have := at_unique hyk' (at_of_split h1 h2 x)
      subst this
      rw [hya] at hs3
      unfold step at hs3
      dsimp only at hs3
      split at hs3
      · cases hs3
      · cases hs3
    · exfalso
      obtain ⟨⟨now, h3⟩, -⟩ := hn y (at_left hyk' h) (by rw [hya]; rfl)
      rw [hya] at h3
      cases h3
  have hbusy : ∀ q e, k < q → At h2 q e → e.action.thread = t → e.ret = none := by
    intro q e hq ha ht
    have := at_length ha
    exact hg.between q e hq (by rw [hlen]; omega) (at_grow (at_grow ha)) ht
  -- the place of the thread when the value was decided
  have place : ∀ p, s3.pc t = p → p ≠ .idle → Progress h2 t k .get p := by
    intro p hp hi
    have := place_exec hx3 t
    rw [hp] at this
    rcases this with ⟨h, -⟩ | ⟨i, c, h3, h4⟩
    · exact absurd h hi
    · obtain ⟨rfl, rfl⟩ := cur_is hx3 h3 ⟨y, at_right hyk' hkd, hya⟩ hbusy
      exact h4
  have hat := C107_atomic hx4
  have hcx : commits (x :: h2) = (b, .returns (some l)) :: commits h2 := by
    unfold commits
    rw [List.filterMap_cons, hxc]
  rw [hcx] at hat
  have hc2 : Clock (x :: h2) := fine_clock_suffix hc1
  cases b with
  | enter u n =>
    obtain ⟨hu, hcm⟩ := hcm
    rw [hxt] at hu
    subst hu
    have hq : s3.pc t = .copy n := by
      rcases hcm with h | h
      · exact h.1
      · cases h.2
    obtain ⟨-, r, hkr, hr⟩ := place _ hq (fun h => nomatch h)
    have ht := times_exec hx4 hc2
    have hpos : 0 < n := hc2.2 n (ht.read (.enter t n, .returns (some l)) (by rw [hcx]; exact List.mem_cons_self) trivial)
    have hl := (times_exec hx3 (fine_clock_tail hc2)).last t n (.inr (.inl hq))
    obtain ⟨v, f, s0, ttl, ⟨k1, k2, hk, hk1, -, httl⟩, hle⟩ := exec_hit_of hat hpos hl.2
    obtain ⟨g1, y, g2, rfl, hyc, rfl, rfl⟩ := commit_split hk
    obtain ⟨s5, s6, hx5, hs5, -⟩ := exec_at hx3
    rw [hyc] at hs5
    obtain ⟨hv, l', hq5, hl'⟩ := committed hs5
    cases hl'
    have hp5 := place_exec hx5 v
    rw [hq5] at hp5
    rcases hp5 with ⟨hp5, -⟩ | ⟨i, c, hcur, -, p, f', q, h3, h4, h5, h6⟩
    · cases hp5
    have hpq : q < g2.length := by
      obtain ⟨z, hz, -⟩ := h6
      exact at_length hz
    have hr2 : r < (g1 ++ y :: g2).length := by
      obtain ⟨z, hz, -⟩ := hr
      exact at_length hz
    refine .inr ⟨v, f', s0, n, ttl, p, q, g2.length, (g1 ++ y :: g2).length, r, h5, hpq, by simp only [List.length_append, List.length_cons]; omega,
      hkr, hr2, by rw [hlen]; omega, answered_grow (answered_grow (answered_grow h4)), actsAt_grow (actsAt_grow (actsAt_grow h6)),
      actsAt_grow (actsAt_grow hr), hle, ?_, ⟨y, _, at_grow (at_grow (at_of_split g1 g2 y)), hyc⟩, ?_, ?_⟩
    · rw [httl]
      exact ttlGiven_grow (ttlGiven_grow (ttlGiven_grow (ttl_given hx5)))
    · intro j e hj1 hj2 ha ht
      have hj3 : j < (g1 ++ y :: g2).length := by simp only [List.length_append, List.length_cons]; omega
      have ha := at_right (at_right (at_right ha (by rw [hlen]; omega)) hj3) hj2
      exact (hcur.since j e (by omega) ha ht).1
    · intro j e z o hj1 hj2 ha hz
      have hm := at_left (at_right (at_right ha (by rw [hlen]; omega)) hj2) hj1
      have : (Cache.Action.reset z, o) ∈ commits g1 := List.mem_filterMap.2 ⟨e, hm, hz⟩
      exact (hk1 _ this).2 trivial
  | store u n =>
    obtain ⟨hu, l', hq, hl'⟩ := hcm
    rw [hxt] at hu
    subst hu
    cases hl'
    obtain ⟨-, p, f, q, h3, h4, -, -⟩ := place _ hq (fun h => nomatch h)
    refine .inl ⟨p, f, h3, ?_, answered_grow (answered_grow h4)⟩
    obtain ⟨z, hz, -⟩ := h4
    have := at_length hz
    rw [hlen]
    omega
  | fetch u n ans => exact absurd rfl (hcm.2 l)
  | reset n => cases hcm
  | setTtl n d => cases hcm.1

/-- A reset which returned took effect. -/
theorem reset_took {empty : α} {h : List (Event α)} {s : State α} (hx : Exec empty h s) {u i j : Nat} {o : Cache.Out α}
    (hr : CallOf h u .reset i j o) : ∃ x e z o, i < x ∧ x < j ∧ At h x e ∧ e.commit = some (.reset z, o) := by
  obtain ⟨e, hej, het, her⟩ := hr.ends
  obtain ⟨a, g, rfl, rfl⟩ := at_split hej
  obtain ⟨s1, s2, hx1, hs1, -⟩ := exec_at hx
  rw [her] at hs1
  have hl := ret_leaving hs1
  rw [het] at hl
  have hp := place_exec hx1 u
  rw [hl] at hp
  rcases hp with ⟨hp, -⟩ | ⟨i', c, hcur, hp⟩
  · cases hp
  · obtain ⟨y, hy, hya⟩ := hr.begins
    obtain ⟨rfl, rfl⟩ := cur_is hx1 hcur ⟨y, at_right hy hr.order, hya⟩ fun q e hq ha ht =>
      hr.between q e hq (at_length ha) (at_grow ha) ht
    obtain ⟨x, e, z, o, h1, h2, h3⟩ := hp rfl
    exact ⟨x, e, z, o, h1, at_length h2, at_grow h2, h3⟩

end Fine

open Fine

/-- **C111**, resets: a list which is returned by a call made after the end of a reset was answered by the system after the beginning
of the reset, or to a thread which was, at the beginning of the reset, still in the call in which it got this list. -/
theorem C111_reset {empty : α} {h : List (Fine.Event α)} {s : Fine.State α} (hx : Fine.Exec empty h s) (hc : Fine.Clock h)
    {u i j : Nat} {o : Cache.Out α} (hr : CallOf h u .reset i j o) {t k m : Nat} {l : α}
    (hg : CallOf h t .get k m (.returns (some l))) (hjk : j < k) :
    ∃ v f p, Answered h v l f p ∧ p < m ∧ (i < p ∨ (p < i ∧ Busy h v p i)) := by
  have hij := hr.order
  rcases origin hx hc hg with ⟨p, f, h1, h2, h3⟩ | ⟨v, f, s0, n, ttl, p, q, w, d, r, h1, h2, h3, h4, h5, h6, h7, h8, h9, h10, h11,
    ⟨e, o', h12, h13⟩, h14, h15⟩
  · exact ⟨t, f, p, h3, h2, .inl (by omega)⟩
  · obtain ⟨x, e', z, o2, g1, g2, g3, g4⟩ := reset_took hx hr
    refine ⟨v, f, p, h7, by omega, ?_⟩
    -- the list was stored after the reset took effect
    have hxw : x < w := by
      rcases Nat.lt_trichotomy x w with hh | hh | hh
      · exact hh
      · exfalso
        subst hh
        have := at_unique g3 h12
        subst this
        rw [g4] at h13
        cases h13
      · exact absurd g4 (h15 x e' z o2 hh (by omega) g3)
    rcases Nat.lt_trichotomy i p with hh | hh | hh
    · exact .inl hh
    · exfalso
      subst hh
      obtain ⟨y, hy, hya⟩ := hr.begins
      obtain ⟨y', hy', hya'⟩ := h7
      have := at_unique hy hy'
      subst this
      rw [hya] at hya'
      cases hya'
    · exact .inr ⟨hh, fun q' e'' a1 a2 a3 a4 => h14 q' e'' a1 (by omega) a3 a4⟩

/-- **C111**, age: a list which a call returns was answered by the system during this call; or it was answered before to a thread which
was, at the time `s0`, still in the call in which it got it, and the call which returns it reads the time at most the TTL after `s0`:
the TTL is counted from the end of the call which asked the system. -/
theorem C111_age {empty : α} {h : List (Fine.Event α)} {s : Fine.State α} (hx : Fine.Exec empty h s) (hc : Fine.Clock h)
    {t k m : Nat} {l : α} (hg : CallOf h t .get k m (.returns (some l))) :
    (∃ f p, k < p ∧ p < m ∧ Answered h t l f p) ∨
      ∃ v f s0 n ttl p q r, p < q ∧ Answered h v l f p ∧ ActsAt h v s0 q ∧ Busy h v p (q + 1) ∧ k < r ∧ r < m ∧ ActsAt h t n r ∧
        TtlGiven h ttl m ∧ n ≤ s0 + (ttl : Nat) := by
  rcases origin hx hc hg with ⟨p, f, h1, h2, h3⟩ | ⟨v, f, s0, n, ttl, p, q, w, d, r, h1, h2, h3, h4, h5, h6, h7, h8, h9, h10, h11,
    h12, h14, h15⟩
  · exact .inl ⟨f, p, h1, h2, h3⟩
  · refine .inr ⟨v, f, s0, n, ttl, p, q, r, h1, h7, h8, fun x e a1 a2 a3 a4 => h14 x e a1 (by omega) a3 a4, h4, by omega, h9, ?_, h10⟩
    exact h11.imp id fun ⟨j, e, t, g1, g2⟩ => ⟨j, e, t, by omega, g2⟩

/-- The times of the events, in their order. -/
theorem clock_at {h : List (Fine.Event α)} (hc : Fine.Clock h) {i j : Nat} {e x : Fine.Event α} {n m : Int} (hi : At h i e)
    (hj : At h j x) (hij : i < j) (hn : timeRead e = some n) (hm : timeRead x = some m) : n ≤ m := by
  obtain ⟨a, g, rfl, rfl⟩ := at_split hj
  have hi := at_right hi hij
  have hc : Fine.Clock (x :: g) := fine_clock_suffix hc
  have h1 := hc.1
  rw [List.filterMap_cons, hm] at h1
  refine (List.pairwise_cons.1 h1).1 n (List.mem_filterMap.2 ⟨e, ?_, hn⟩)
  unfold At at hi
  exact List.mem_reverse.1 (List.mem_of_getElem? hi)

/-- **C111**, age: a call which returns a list which was not answered during this call does not begin later than the TTL after the end
of the call to which the system answered it. -/
theorem C111_fresh {empty : α} {h : List (Fine.Event α)} {s : Fine.State α} (hx : Fine.Exec empty h s) (hc : Fine.Clock h)
    {t k m : Nat} {l : α} (hg : CallOf h t .get k m (.returns (some l))) (hn : ∀ f p, k < p → p < m → ¬ Answered h t l f p) :
    ∃ v f p ttl, Answered h v l f p ∧ TtlGiven h ttl m ∧
      ∀ x T, (∃ e, At h x e ∧ timeRead e = some T) → x ≤ k →
        ∀ j R, (∃ e, At h j e ∧ e.action.thread = v ∧ e.ret ≠ none ∧ timeRead e = some R) → p < j → T ≤ R + (ttl : Nat) := by
  rcases C111_age hx hc hg with ⟨f, p, h1, h2, h3⟩ | ⟨v, f, s0, n, ttl, p, q, r, h1, h2, ⟨e1, h3, h3'⟩, h4, h5, h6, ⟨e2, h7, h7'⟩, h8, h9⟩
  · exact absurd h3 (hn f p h1 h2)
  · refine ⟨v, f, p, ttl, h2, h8, ?_⟩
    rintro x T ⟨e3, g1, g2⟩ hxk j R ⟨e4, g3, g4, g5, g6⟩ hpj
    have hqj : q < j := by
      apply Nat.lt_of_not_le
      intro hle
      exact g5 (h4 j e4 hpj (by omega) g3 g4)
    have t1 : timeRead e1 = some s0 := by
      obtain ⟨a, c, r⟩ := e1
      have h3' : a = .step v s0 := h3'
      subst h3'
      rfl
    have t2 : timeRead e2 = some n := by
      obtain ⟨a, c, r⟩ := e2
      have h7' : a = .step t n := h7'
      subst h7'
      rfl
    have b1 := clock_at hc g1 h7 (by omega) g2 t2
    have b2 := clock_at hc h3 g3 hqj t1 g6
    omega

/-! ## A reset while a thread asks the system -/

/-- A decision procedure for `CallOf`. -/
theorem callOf_of {h : List (Fine.Event α)} {t i j : Nat} {c : Call} {o : Cache.Out α} (hij : i < j)
    (hb : ∃ e, h.reverse[i]? = some e ∧ e.action = .call t c) (he : ∃ e, h.reverse[j]? = some e ∧ e.action.thread = t ∧ e.ret = some o)
    (hn : (((h.reverse.take j).drop (i + 1)).all fun e => e.action.thread != t || e.ret.isNone) = true) : CallOf h t c i j o := by
  refine ⟨hij, hb, he, fun q e hiq hqj ha ht => ?_⟩
  have hm : e ∈ (h.reverse.take j).drop (i + 1) := by
    apply List.mem_of_getElem? (i := q - (i + 1))
    rw [List.getElem?_drop, show i + 1 + (q - (i + 1)) = q by omega, List.getElem?_take_of_lt hqj]
    exact ha
  have := List.all_eq_true.1 hn e hm
  simp only [ht, bne_self_eq_false, Bool.false_or, Option.isNone_iff_eq_none] at this
  exact this

/-- Thread 1 got a list from the system, thread 2 resets the cache, thread 1 stores its list, which thread 3 then finds. -/
def resetInFlight : List (Fine.Action Nat) :=
  [.call 1 .get, .step 1 1, .step 1 1, .step 1 1, .step 1 1, .fetch 1 1 (.list 7),
   .call 2 .reset, .step 2 2, .step 2 2, .step 2 2, .step 2 2, .step 2 2,
   .step 1 3, .step 1 3, .step 1 3, .step 1 3, .step 1 3, .step 1 3, .step 1 3, .step 1 3,
   .call 3 .get, .step 3 4, .step 3 4, .step 3 4, .step 3 4, .step 3 4, .step 3 4]

/-- The answers of the system. -/
def answers (h : List (Fine.Event α)) : List (Fine.Action α) :=
  (h.map (·.action)).filter fun a => match a with | .fetch _ _ _ => true | _ => false

/-- **C111**, resets: the second case of `C111_reset` does happen. The reset is from 6 to 11, the call from 20 to 26 returns the only list
which the system ever answered, at 5. -/
theorem C111_in_flight : ∃ (h : List (Fine.Event Nat)) (s : Fine.State Nat), Fine.Exec 0 h s ∧ Fine.Clock h ∧
    CallOf h 2 .reset 6 11 .nothing ∧ CallOf h 3 .get 20 26 (.returns (some 7)) ∧ Answered h 1 7 1 5 ∧ (answers h).length = 1 := by
  refine ⟨_, _, run_exec (as := resetInFlight) .start rfl, ⟨?_, ?_⟩, ?_, ?_, ?_, rfl⟩
  · decide
  · decide
  · exact callOf_of (by decide) ⟨_, rfl, rfl⟩ ⟨_, rfl, rfl, rfl⟩ rfl
  · exact callOf_of (by decide) ⟨_, rfl, rfl⟩ ⟨_, rfl, rfl, rfl⟩ rfl
  · exact ⟨_, rfl, rfl⟩

end Verif
