import Verif.Model.OstreamIndex

/-!
# C108: the index of the stream manipulators
-/

namespace Verif

namespace Index

/-- The numbers which the function got from `xalloc()`, the last one first. -/
def gotten : List Event → List Nat
  | [] => []
  | .got n :: h => n :: gotten h
  | _ :: h => gotten h

/-- The thread is within the critical section. -/
def holds : Pc → Bool
  | .idle | .enter => false
  | _ => true

/-- What a thread within the critical section knows. -/
def Knows (h : List Event) (s : State) : Pc → Prop
  | .mark => s.allocated = false
  | .alloc => s.allocated = true ∧ gotten h = []
  | .write n => s.allocated = true ∧ gotten h = [n]
  | .copy => s.allocated = true ∧ gotten h = [s.index]
  | .copied n => s.allocated = true ∧ gotten h = [s.index] ∧ n = s.index
  | _ => True

/-- The thread which allocates the number. -/
def allocating : Pc → Bool
  | .alloc | .write _ => true
  | _ => false

/-- The invariant. -/
structure Inv (h : List Event) (s : State) : Prop where
  owner : ∀ t, holds (s.pc t) = true ↔ s.owner = some t
  knows : ∀ t, Knows h s (s.pc t)
  unset : s.allocated = false → gotten h = []
  set : s.allocated = true → (∀ t, allocating (s.pc t) = false) → gotten h = [s.index]
  returned : ∀ t n, Event.returned t n ∈ h → gotten h = [n]
  below : (∀ n ∈ gotten h, n < s.next) ∧ ∀ n, Event.other n ∈ h → n < s.next
  apart : ∀ n ∈ gotten h, Event.other n ∉ h

theorem knows_free {h : List Event} {s : State} {p : Pc} (hp : holds p = false) : Knows h s p := by
  cases p <;> first | trivial | cases hp

theorem allocating_holds {p : Pc} (h : allocating p = true) : holds p = true := by
  cases p <;> first | rfl | cases h

theorem inv_step {h : List Event} {s s' : State} {a : Action} {e : Option Event} (hi : Inv h s) (hs : step s a = some (s', e)) :
    Inv (e.toList ++ h) s' := by
  -- what a thread which is not within the critical section knows does not matter
  have others : ∀ {t u : Nat} {h' : List Event} {s1 : State}, holds (s.pc t) = true → u ≠ t → Knows h' s1 (s.pc u) := by
    intro t u h' s1 ht hu
    apply knows_free
    cases hh : holds (s.pc u) with
    | false => rfl
    | true =>
      have e1 := (hi.owner u).1 hh
      rw [(hi.owner t).1 ht] at e1
      exact absurd (Option.some.inj e1).symm hu
  have owner' : ∀ {t : Nat} {p : Pc}, holds p = holds (s.pc t) → ∀ u, holds (if u = t then p else s.pc u) = true ↔ s.owner = some u := by
    intro t p hp u
    split
    · next hu => subst hu; rw [hp]; exact hi.owner u
    · exact hi.owner u
  have quiet : ∀ {t : Nat}, holds (s.pc t) = true → ∀ u, u ≠ t → allocating (s.pc u) = false := by
    intro t ht u hu
    cases hh : allocating (s.pc u) with
    | false => rfl
    | true =>
      have e1 := (hi.owner u).1 (allocating_holds hh)
      rw [(hi.owner t).1 ht] at e1
      exact absurd (Option.some.inj e1).symm hu
  cases a with
  | other =>
    cases hs
    refine ⟨hi.owner, fun t => ?_, hi.unset, hi.set, fun t n hm => ?_, ⟨fun n hn => ?_, fun n hm => ?_⟩, fun n hn hm => ?_⟩
    · have := hi.knows t
      show Knows (.other s.next :: h) { s with next := s.next + 1 } (s.pc t)
      cases hp : s.pc t <;> rw [hp] at this <;> exact this
    · rcases List.mem_cons.1 hm with hm | hm
      · cases hm
      · exact hi.returned t n hm
    · have := hi.below.1 n hn
      show n < s.next + 1
      omega
    · show n < s.next + 1
      rcases List.mem_cons.1 hm with hm | hm
      · cases hm; omega
      · have := hi.below.2 n hm
        omega
    · have hlt := hi.below.1 n hn
      rcases List.mem_cons.1 hm with hm | hm
      · cases hm; omega
      · exact hi.apart n hn hm
  | call t =>
    unfold step at hs
    dsimp only at hs
    split at hs
    · next hp =>
      cases hs
      refine ⟨owner' (by rw [hp]; rfl), fun u => ?_, hi.unset, fun h1 h2 => hi.set h1 fun u => ?_, hi.returned, hi.below, hi.apart⟩
      · show Knows h _ (if u = t then .enter else s.pc u)
        split
        · trivial
        · have := hi.knows u
          cases hu : s.pc u <;> rw [hu] at this <;> exact this
      · have := h2 u
        by_cases hu : u = t
        · rw [hu, hp]; rfl
        · rwa [show (s.move t .enter).pc u = s.pc u from if_neg hu] at this
    · cases hs
  | step t =>
    unfold step at hs
    dsimp only at hs
    cases hp : s.pc t with
    | idle => rw [hp] at hs; cases hs
    | enter =>
      rw [hp] at hs
      dsimp only at hs
      cases ho : s.owner with
      | some u => rw [ho] at hs; cases hs
      | none =>
        rw [ho] at hs
        cases hs
        refine ⟨fun u => ?_, fun u => ?_, hi.unset, fun h1 h2 => hi.set h1 fun u => ?_, hi.returned, hi.below, hi.apart⟩
        · show holds (if u = t then .test else s.pc u) = true ↔ some t = some u
          split
          · next hu => subst hu; simp [holds]
          · next hu =>
            rw [hi.owner u, ho]
            simp only [reduceCtorEq, false_iff, Option.some.injEq]
            exact fun hh => hu hh.symm
        · show Knows h _ (if u = t then .test else s.pc u)
          split
          · trivial
          · have := hi.knows u
            cases hu : s.pc u <;> rw [hu] at this <;> exact this
        · cases hh : allocating (s.pc u) with
          | false => rfl
          | true =>
            have e1 := (hi.owner u).1 (allocating_holds hh)
            rw [ho] at e1
            cases e1
    | test =>
      have ht : holds (s.pc t) = true := by rw [hp]; rfl
      rw [hp] at hs
      simp only [Option.some.injEq, Prod.mk.injEq] at hs
      obtain ⟨h1, rfl⟩ := hs
      split at h1
      · next ha =>
        subst h1
        have hg : gotten h = [s.index] := hi.set ha fun u => by
          by_cases hu : u = t
          · rw [hu, hp]; rfl
          · exact quiet ht u hu
        refine ⟨owner' (by rw [hp]; rfl), fun u => ?_, hi.unset, fun _ _ => hg, hi.returned, hi.below, hi.apart⟩
        show Knows h _ (if u = t then .copy else s.pc u)
        split
        · exact ⟨ha, hg⟩
        · next hu => exact others ht hu
      · next ha =>
        subst h1
        have ha : s.allocated = false := Bool.not_eq_true _ ▸ ha
        refine ⟨owner' (by rw [hp]; rfl), fun u => ?_, hi.unset, fun h1 _ => ?_, hi.returned, hi.below, hi.apart⟩
        · show Knows h _ (if u = t then .mark else s.pc u)
          split
          · exact ha
          · next hu => exact others ht hu
        · rw [show (s.move t .mark).allocated = s.allocated from rfl, ha] at h1
          cases h1
    | mark =>
      have ht : holds (s.pc t) = true := by rw [hp]; rfl
      have hk := hi.knows t
      rw [hp] at hs hk
      cases hs
      have hg := hi.unset hk
      refine ⟨owner' (by rw [hp]; rfl), fun u => ?_, fun _ => hg, fun _ h2 => ?_, hi.returned, hi.below, hi.apart⟩
      · show Knows h _ (if u = t then .alloc else s.pc u)
        split
        · exact ⟨rfl, hg⟩
        · next hu => exact others ht hu
      · have := h2 t
        rw [show (({ s with allocated := true } : State).move t .alloc).pc t = .alloc from if_pos rfl] at this
        cases this
    | alloc =>
      have ht : holds (s.pc t) = true := by rw [hp]; rfl
      have hk := hi.knows t
      rw [hp] at hs hk
      cases hs
      obtain ⟨hk1, hk2⟩ := hk
      have hg : gotten (.got s.next :: h) = [s.next] := by rw [gotten, hk2]
      refine ⟨owner' (by rw [hp]; rfl), fun u => ?_, fun h1 => ?_, fun _ h2 => ?_, fun u n hm => ?_, ⟨fun n hn => ?_, fun n hm => ?_⟩,
        fun n hn hm => ?_⟩
      · show Knows (.got s.next :: h) _ (if u = t then .write s.next else s.pc u)
        split
        · exact ⟨hk1, hg⟩
        · next hu => exact others ht hu
      · rw [show (({ s with next := s.next + 1 } : State).move t (.write s.next)).allocated = s.allocated from rfl, hk1] at h1
        cases h1
      · have := h2 t
        rw [show (({ s with next := s.next + 1 } : State).move t (.write s.next)).pc t = .write s.next from if_pos rfl] at this
        cases this
      · rcases List.mem_cons.1 hm with hm | hm
        · cases hm
        · have := hi.returned u n hm
          rw [hk2] at this
          cases this
      · show n < s.next + 1
        rw [show (some (Event.got s.next)).toList ++ h = .got s.next :: h from rfl, hg] at hn
        have := List.mem_singleton.1 hn
        omega
      · show n < s.next + 1
        rcases List.mem_cons.1 hm with hm | hm
        · cases hm
        · have := hi.below.2 n hm
          omega
      · rw [show (some (Event.got s.next)).toList ++ h = .got s.next :: h from rfl, hg] at hn
        have e1 := List.mem_singleton.1 hn
        rcases List.mem_cons.1 hm with hm | hm
        · cases hm
        · have := hi.below.2 n hm
          omega
    | write n =>
      have ht : holds (s.pc t) = true := by rw [hp]; rfl
      have hk := hi.knows t
      rw [hp] at hs hk
      cases hs
      obtain ⟨hk1, hk2⟩ := hk
      refine ⟨owner' (by rw [hp]; rfl), fun u => ?_, hi.unset, fun _ _ => hk2, hi.returned, hi.below, hi.apart⟩
      show Knows h _ (if u = t then .copy else s.pc u)
      split
      · exact ⟨hk1, hk2⟩
      · next hu => exact others ht hu
    | copy =>
      have ht : holds (s.pc t) = true := by rw [hp]; rfl
      have hk := hi.knows t
      rw [hp] at hs hk
      cases hs
      obtain ⟨hk1, hk2⟩ := hk
      refine ⟨owner' (by rw [hp]; rfl), fun u => ?_, hi.unset, fun _ _ => hk2, hi.returned, hi.below, hi.apart⟩
      show Knows h _ (if u = t then .copied s.index else s.pc u)
      split
      · exact ⟨hk1, hk2, rfl⟩
      · next hu => exact others ht hu
    | copied n =>
      have ht : holds (s.pc t) = true := by rw [hp]; rfl
      have hk := hi.knows t
      rw [hp] at hs hk
      cases hs
      obtain ⟨hk1, hk2, rfl⟩ := hk
      refine ⟨fun u => ?_, fun u => ?_, hi.unset, fun _ _ => hk2, fun u n hm => ?_, ⟨hi.below.1, fun n hm => ?_⟩, fun n hn hm => ?_⟩
      · show holds (if u = t then .idle else s.pc u) = true ↔ none = some u
        split
        · simp [holds]
        · next hu =>
          rw [hi.owner u, (hi.owner t).1 ht]
          simp only [reduceCtorEq, iff_false, Option.some.injEq]
          exact fun hh => hu hh.symm
      · show Knows _ _ (if u = t then .idle else s.pc u)
        split
        · trivial
        · next hu => exact others ht hu
      · rcases List.mem_cons.1 hm with hm | hm
        · cases hm
          exact hk2
        · exact hi.returned u n hm
      · rcases List.mem_cons.1 hm with hm | hm
        · cases hm
        · exact hi.below.2 n hm
      · rcases List.mem_cons.1 hm with hm | hm
        · cases hm
        · exact hi.apart n hn hm

theorem inv_exec {first : Nat} {h : List Event} {s : State} (hx : Exec first h s) : Inv h s := by
  induction hx with
  | start =>
    exact ⟨fun t => by simp [init, holds], fun t => trivial, fun _ => rfl, fun h _ => (nomatch h), fun _ _ h => (nomatch h),
      ⟨fun _ h => (nomatch h), fun _ h => (nomatch h)⟩, fun _ h => (nomatch h)⟩
  | silent _ hs ih => exact inv_step ih hs
  | seen _ hs ih => exact inv_step ih hs

/-- A data race on a variable: two threads are about to access it, and one of them writes it. -/
def Race (s : State) (v : Var) : Prop :=
  ∃ t u w w', t ≠ u ∧ access (s.pc t) = some (v, w) ∧ access (s.pc u) = some (v, w') ∧ (w = true ∨ w' = true)

end Index

open Index

/-- **C108**: all the calls return the same number, in whichever threads, and nobody else ever got it from `xalloc()`. -/
theorem C108_same {first : Nat} {h : List Event} {s : Index.State} (hx : Index.Exec first h s) {t n : Nat}
    (hr : Event.returned t n ∈ h) : (∀ u m, Event.returned u m ∈ h → m = n) ∧ Event.got n ∈ h ∧ Event.other n ∉ h := by
  have hi := Index.inv_exec hx
  have hg := hi.returned t n hr
  refine ⟨fun u m hm => ?_, ?_, hi.apart n (by rw [hg]; exact List.mem_singleton.2 rfl)⟩
  · have := hi.returned u m hm
    rw [hg] at this
    cases this
    rfl
  · clear hx hi hr
    have : n ∈ gotten h := by rw [hg]; exact List.mem_singleton.2 rfl
    clear hg
    induction h with
    | nil => cases this
    | cons e h ih =>
      cases e with
      | got m =>
        rcases List.mem_cons.1 this with rfl | h1
        · exact List.mem_cons_self
        · exact List.mem_cons_of_mem _ (ih h1)
      | returned u m => exact List.mem_cons_of_mem _ (ih this)
      | other m => exact List.mem_cons_of_mem _ (ih this)

/-- **C108**: the number is allocated at most once, and once if a call returned. -/
theorem C108_once {first : Nat} {h : List Event} {s : Index.State} (hx : Index.Exec first h s) : (gotten h).length ≤ 1 := by
  have hi := Index.inv_exec hx
  cases ha : s.allocated with
  | false => rw [hi.unset ha]; exact Nat.zero_le _
  | true =>
    by_cases hq : ∀ t, allocating (s.pc t) = false
    · rw [hi.set ha hq]
      exact Nat.le_refl _
    · obtain ⟨t, ht⟩ := Classical.not_forall.1 hq
      have hk := hi.knows t
      cases hp : s.pc t with
      | alloc => rw [hp] at hk; rw [hk.2]; exact Nat.zero_le _
      | write n => rw [hp] at hk; rw [hk.2]; exact Nat.le_refl _
      | _ => rw [hp] at ht; exact absurd rfl ht

/-- **C108**: there is no data race. -/
theorem C108_no_race {first : Nat} {h : List Event} {s : Index.State} (hx : Index.Exec first h s) (v : Index.Var) :
    ¬ Index.Race s v := by
  rintro ⟨t, u, w, w', htu, ht, hu, -⟩
  have hi := Index.inv_exec hx
  have held : ∀ {p : Index.Pc} {x}, access p = some x → Index.holds p = true := by
    intro p x hp
    cases p <;> first | rfl | cases hp
  have e1 := (hi.owner t).1 (held ht)
  rw [(hi.owner u).1 (held hu)] at e1
  exact htu (Option.some.inj e1).symm

/-- **C108**, the accesses are all there: a variable which a transition changes is one which the thread was about to write. -/
theorem C108_writes {s s' : Index.State} {t : Nat} {e : Option Event} (h : Index.step s (.step t) = some (s', e)) :
    (s'.allocated ≠ s.allocated → access (s.pc t) = some (.allocated, true)) ∧
    (s'.index ≠ s.index → access (s.pc t) = some (.index, true)) := by
  unfold Index.step at h
  dsimp only at h
  cases hp : s.pc t with
  | idle => rw [hp] at h; cases h
  | enter =>
    rw [hp] at h
    dsimp only at h
    split at h
    · cases h
      exact ⟨fun h => absurd rfl h, fun h => absurd rfl h⟩
    · cases h
  | test =>
    rw [hp] at h
    simp only [Option.some.injEq, Prod.mk.injEq] at h
    obtain ⟨h1, -⟩ := h
    split at h1 <;> subst h1 <;> exact ⟨fun h => absurd rfl h, fun h => absurd rfl h⟩
  | mark =>
    rw [hp] at h
    cases h
    exact ⟨fun _ => rfl, fun h => absurd rfl h⟩
  | write n =>
    rw [hp] at h
    cases h
    exact ⟨fun h => absurd rfl h, fun _ => rfl⟩
  | _ =>
    rw [hp] at h
    cases h
    exact ⟨fun h => absurd rfl h, fun h => absurd rfl h⟩

/-- **C108**, the accesses are all there: what a thread does next depends only on the variable which it is about to access. -/
theorem C108_reads {s s' : Index.State} {t : Nat} {e : Option Event} (h : Index.step s (.step t) = some (s', e)) (b : Bool) (i : Nat)
    (hb : ∀ w, access (s.pc t) = some (.allocated, w) → b = s.allocated) (hi : ∀ w, access (s.pc t) = some (.index, w) → i = s.index) :
    ∃ s'', Index.step { s with allocated := b, index := i } (.step t) = some (s'', e) ∧ s''.pc = s'.pc ∧ s''.owner = s'.owner ∧
      s''.next = s'.next := by
  unfold Index.step at h ⊢
  dsimp only at h ⊢
  cases hp : s.pc t with
  | idle => rw [hp] at h; cases h
  | enter =>
    rw [hp] at h
    dsimp only at h ⊢
    cases ho : s.owner with
    | none =>
      rw [ho] at h
      cases h
      exact ⟨_, rfl, rfl, rfl, rfl⟩
    | some u => rw [ho] at h; cases h
  | test =>
    rw [hp] at h
    simp only [Option.some.injEq, Prod.mk.injEq] at h ⊢
    obtain ⟨h1, rfl⟩ := h
    rw [hb false (by rw [hp]; rfl)]
    subst h1
    refine ⟨_, ⟨rfl, rfl⟩, ?_⟩
    split <;> exact ⟨rfl, rfl, rfl⟩
  | copy =>
    rw [hp] at h
    cases h
    dsimp only
    rw [hi false (by rw [hp]; rfl)]
    exact ⟨_, rfl, rfl, rfl, rfl⟩
  | _ =>
    rw [hp] at h
    cases h
    exact ⟨_, rfl, rfl, rfl, rfl⟩

/-- The transitions, one after the other. -/
def Index.run : List Action → List Event × Index.State → Option (List Event × Index.State)
  | [], x => some x
  | a :: as, (h, s) =>
    match Index.step s a with
    | some (s', some e) => Index.run as (e :: h, s')
    | some (s', none) => Index.run as (h, s')
    | none => none

theorem index_run_exec {first : Nat} {as : List Action} {h h' : List Event} {s s' : Index.State} (hx : Index.Exec first h s)
    (hr : Index.run as (h, s) = some (h', s')) : Index.Exec first h' s' := by
  induction as generalizing h s with
  | nil =>
    cases hr
    exact hx
  | cons a as ih =>
    rw [Index.run] at hr
    cases hs : Index.step s a with
    | none => rw [hs] at hr; cases hr
    | some x =>
      obtain ⟨s1, e⟩ := x
      rw [hs] at hr
      cases e with
      | none => exact ih (hx.silent hs) hr
      | some e => exact ih (hx.seen hs) hr

/-- Two threads call the function at once, and another part of the program allocates numbers meanwhile. -/
example : ∃ h s, Index.Exec 4 h s ∧ Event.returned 1 5 ∈ h ∧ Event.returned 2 5 ∈ h ∧ Event.other 4 ∈ h ∧ Event.other 6 ∈ h := by
  refine ⟨[.returned 2 5, .returned 1 5, .other 6, .got 5, .other 4], _, index_run_exec (as := [.call 1, .call 2, .step 1, .step 1,
    .step 1, .other, .step 1, .other, .step 1, .step 1, .step 1, .step 2, .step 2, .step 2, .step 2]) .start rfl,
    by simp, by simp, by simp, by simp⟩

end Verif
