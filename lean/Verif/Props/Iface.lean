import Verif.Lemmas.Iface

/-!
# C50 and C51: the cache of the interfaces
-/

namespace Verif

open Spec Cache

variable {α : Type}

/-! ## C50 -/

/-- The claim of C50: a list found in the cache was fetched at most the TTL ago. -/
def C50_claim : Prop :=
  ∀ (α : Type) (empty : α) (h : List (Event α)) (s : State α) (t : Nat) (r : Int) (l : α),
    Exec empty ((.enter t r, .returns (some l)) :: h) s → Clock ((Action.enter t r, Out.returns (some l)) :: h) →
    ∃ t' f o, (Action.fetch t' f (.list l), o) ∈ h ∧ r ≤ f + ttlOf h

/-- A call which takes long: the TTL is ten seconds, the list is got from the system at 1, stored at 100 and found at 105. -/
def slowHistory : List (Event Nat) :=
  [(.enter 2 105, .returns (some 7)), (.store 1 100, .returns (some 7)), (.fetch 1 1 (.list 7), .nothing),
   (.enter 1 1, .nothing), (.setTtl 1 10, .nothing)]

theorem slowHistory_exec : ∃ s, Exec 0 slowHistory s :=
  ⟨_, .next (.next (.next (.next (.next .start rfl) rfl) rfl) rfl) rfl⟩

/-- C50 is false: the TTL is counted from the end of the call which fetched the list, not from the fetch. -/
theorem C50_claim_fails : ¬ C50_claim := by
  intro h
  obtain ⟨s, hs⟩ := slowHistory_exec
  obtain ⟨t', f, o, hm, hle⟩ := h Nat 0 _ s 2 105 7 hs ⟨by simp [timeOf], by simp [timeOf]⟩
  simp only [List.mem_cons, Prod.mk.injEq, reduceCtorEq, Action.fetch.injEq, false_and, or_false, false_or, List.not_mem_nil] at hm
  obtain ⟨⟨-, rfl, -⟩, -⟩ := hm
  simp [ttlOf] at hle

/-- **C50**, counted from the end of the fetch: a list found in the cache is the last one stored, which the system had answered
to the thread which stored it, it was stored at most the TTL ago (the TTL in force then), and the cache was not reset
since. In particular the empty list put in the cache during a fetch is never returned, however many threads there are. -/
theorem C50_hit_partial {empty : α} {h : List (Event α)} {s : State α} {t : Nat} {r : Int} {l : α}
    (hx : Exec empty ((.enter t r, .returns (some l)) :: h) s) (hc : Clock ((Action.enter t r, Out.returns (some l)) :: h)) :
    ∃ t' f s0 ttl, Stored h t' l f s0 ttl ∧ f ≤ s0 ∧ s0 ≤ r ∧ r ≤ s0 + ttl := by
  obtain ⟨t', f, s0, ttl, hs, hr⟩ := exec_hit hx hc
  refine ⟨t', f, s0, ttl, hs, ?_, ?_, hr⟩
  · obtain ⟨h1, h2, rfl, -, ⟨h3, h4, rfl, -⟩, -⟩ := hs
    have := (List.pairwise_append.1 (List.pairwise_cons.1 hc.1).2).2.1
    exact (List.pairwise_cons.1 this).1 (.fetch t' f (.list l), .nothing) (by simp)
  · obtain ⟨h1, h2, rfl, -, -, -⟩ := hs
    exact (List.pairwise_cons.1 hc.1).1 (.store t' s0, .returns (some l)) (by simp)

example : ∃ s, Exec 0 slowHistory s ∧ Clock slowHistory :=
  slowHistory_exec.imp fun _ h => ⟨h, by simp [timeOf, slowHistory], by simp [timeOf, slowHistory]⟩

/-- **C50**: a list which is not found in the cache is got from the system during the call. -/
theorem C50_fetched_in_call {empty : α} {h : List (Event α)} {s : State α} {t : Nat} {r : Int} {l : Option α}
    (hx : Exec empty ((.store t r, .returns l) :: h) s) :
    ∃ l' f c h1 h2 h3, l = some l' ∧ h = h1 ++ (.fetch t f (.list l'), .nothing) :: (h2 ++ (.enter t c, .nothing) :: h3) ∧
      ∀ e ∈ h1 ++ h2, ¬ IsOf t e := by
  obtain ⟨l', f, rfl, h1, h2, rfl, hn⟩ := exec_store hx
  cases hx with
  | next hx _ =>
    obtain ⟨s', hx⟩ := exec_suffix hx
    obtain ⟨h3, h4, c, rfl, hn2⟩ := exec_fetch hx
    refine ⟨l', f, c, h1, h3, h4, rfl, rfl, ?_⟩
    intro e he
    rcases List.mem_append.1 he with he | he
    · exact hn e he
    · exact hn2 e he

/-- **C50**: the cache is used: within the TTL of the last list stored, without a reset since, a call returns this list and does
not ask the system. -/
theorem C50_served {empty : α} {h : List (Event α)} {s : State α} {t t' : Nat} {r f s0 : Int} {l : α} {ttl : Nat} {o : Out α}
    (hx : Exec empty ((.enter t r, o) :: h) s) (hc : Clock ((Action.enter t r, o) :: h)) (hs : Stored h t' l f s0 ttl)
    (hr : r ≤ s0 + ttl) : o = .returns (some l) := by
  cases hx with
  | @next _ s1 _ _ _ hx hstep =>
    obtain ⟨h1, h2⟩ := stored_cache hx hs
    have hl : s1.globals.list = some l := by
      rcases h2 with h2 | ⟨e, he, h2⟩
      · exact h2
      · have : timeOf e ≤ r := (List.pairwise_cons.1 hc.1).1 e he
        omega
    rw [step] at hstep
    split at hstep
    · rw [hl] at hstep
      dsimp only at hstep
      rw [if_pos (by omega)] at hstep
      cases hstep
      rfl
    · cases hstep

/-- The list is stored at 100 with a TTL of ten seconds, a call at 200 starts to fetch, the clock goes back to 105. -/
def backHistory : List (Event Nat) :=
  [(.enter 2 105, .returns (some 0)), (.enter 1 200, .nothing), (.store 1 100, .returns (some 7)),
   (.fetch 1 100 (.list 7), .nothing), (.enter 1 100, .nothing), (.setTtl 100 10, .nothing)]

/-- The hypothesis on the clock is needed: when it goes back the empty list put in the cache during a fetch is returned,
although the system never answered an empty list. -/
theorem C50_clock_needed : (∃ s, Exec 0 backHistory s) ∧ ∀ t f o, (Action.fetch t f (.list 0), o) ∉ backHistory := by
  refine ⟨⟨_, .next (.next (.next (.next (.next (.next .start rfl) rfl) rfl) rfl) rfl) rfl⟩, ?_⟩
  intro t f o h
  simp [backHistory] at h

/-! ## C51 -/

/-- The claim of C51: a call which starts after a reset returns a list fetched after the reset. -/
def C51_claim : Prop :=
  ∀ (α : Type) (empty : α) (h1 h2 : List (Event α)) (s : State α) (t : Nat) (r z : Int) (l : α),
    Exec empty ((.enter t r, .returns (some l)) :: (h1 ++ (.reset z, .nothing) :: h2)) s →
    Clock ((Action.enter t r, Out.returns (some l)) :: (h1 ++ (.reset z, .nothing) :: h2)) →
    ∃ t' f o, (Action.fetch t' f (.list l), o) ∈ h1

/-- A reset during a call. -/
def resetHistory : List (Event Nat) :=
  [(.enter 2 4, .returns (some 7)), (.store 1 3, .returns (some 7)), (.reset 2, .nothing), (.fetch 1 1 (.list 7), .nothing),
   (.enter 1 1, .nothing)]

/-- C51 is false: a list fetched before the reset is stored after it and then returned for the next five minutes. -/
theorem C51_claim_fails : ¬ C51_claim := by
  intro h
  have hx : ∃ s, Exec 0 resetHistory s := ⟨_, .next (.next (.next (.next (.next .start rfl) rfl) rfl) rfl) rfl⟩
  obtain ⟨s, hs⟩ := hx
  obtain ⟨t', f, o, hm⟩ := h Nat 0 [(.store 1 3, .returns (some 7))] _ s 2 4 2 7 hs ⟨by simp [timeOf], by simp [timeOf]⟩
  simp at hm

/-- **C51**, exactly: a call which starts after a reset and finds a list in the cache returns one which was fetched after the
reset, or one which a thread held at the moment of the reset, fetched and not yet stored. -/
theorem C51_reset_partial {empty : α} {h1 h2 : List (Event α)} {s : State α} {t : Nat} {r z : Int} {l : α}
    (hx : Exec empty ((.enter t r, .returns (some l)) :: (h1 ++ (.reset z, .nothing) :: h2)) s)
    (hc : Clock ((Action.enter t r, Out.returns (some l)) :: (h1 ++ (.reset z, .nothing) :: h2))) :
    (∃ t' f, (Action.fetch t' f (.list l), Out.nothing) ∈ h1) ∨ ∃ t' f, HoldsList h2 t' l f := by
  obtain ⟨t', f, s0, ttl, ⟨g1, g2, e, hn, ⟨g3, g4, e2, hn2⟩, -⟩, -⟩ := C50_hit_partial hx hc
  -- the reset is not after the store
  have key : ∃ k, h1 = g1 ++ (.store t' s0, .returns (some l)) :: k ∧ g2 = k ++ (.reset z, .nothing) :: h2 := by
    rcases List.append_eq_append_iff.1 e with ⟨k, rfl, e'⟩ | ⟨k, rfl, e'⟩
    · cases k with
      | nil => simp at e'
      | cons x k =>
        simp only [List.cons_append, List.cons.injEq] at e'
        obtain ⟨rfl, -⟩ := e'
        exact absurd (show IsReset ((.reset z, .nothing) : Event α) from trivial) (hn (.reset z, .nothing) (by simp)).2
    · cases k with
      | nil => simp at e'
      | cons x k =>
        simp only [List.cons_append, List.cons.injEq] at e'
        obtain ⟨rfl, rfl⟩ := e'
        exact ⟨k, rfl, rfl⟩
  obtain ⟨k, rfl, rfl⟩ := key
  rcases List.append_eq_append_iff.1 e2 with ⟨k', rfl, e'⟩ | ⟨k', rfl, e'⟩
  · cases k' with
    | nil => simp at e'
    | cons x k' =>
      simp only [List.cons_append, List.cons.injEq] at e'
      obtain ⟨rfl, rfl⟩ := e'
      exact Or.inr ⟨t', f, k', g4, rfl, fun e he => hn2 e (by simp [he])⟩
  · cases k' with
    | nil => simp at e'
    | cons x k' =>
      simp only [List.cons_append, List.cons.injEq] at e'
      obtain ⟨rfl, rfl⟩ := e'
      exact Or.inl ⟨t', f, by simp⟩

/-- **C51**: a call which starts after a reset and does not find a list in the cache fetches it after the reset. -/
theorem C51_fetched_after {empty : α} {h1 h2 : List (Event α)} {s : State α} {t : Nat} {r z : Int} {l : Option α}
    (hx : Exec empty ((.store t r, .returns l) :: (h1 ++ (.reset z, .nothing) :: h2)) s)
    (hstart : ∃ c, (Action.enter t c, Out.nothing) ∈ h1) :
    ∃ l' f, l = some l' ∧ (Action.fetch t f (.list l'), Out.nothing) ∈ h1 := by
  obtain ⟨l', f, rfl, g1, g2, e, hn⟩ := exec_store hx
  refine ⟨l', f, rfl, ?_⟩
  rcases List.append_eq_append_iff.1 e with ⟨k, rfl, e'⟩ | ⟨k, rfl, e'⟩
  · obtain ⟨c, hm⟩ := hstart
    exact absurd rfl (hn _ (List.mem_append_left _ hm))
  · cases k with
    | nil => simp at e'
    | cons x k =>
      simp only [List.cons_append, List.cons.injEq] at e'
      obtain ⟨rfl, -⟩ := e'
      simp

/-- A reset between two calls, then a list found in the cache: the hypotheses of `C51_reset_partial` with nobody holding a
list at the reset. -/
example : ∃ s, Exec 0 ([(.enter 2 5, .returns (some 8)), (.store 1 4, .returns (some 8)), (.fetch 1 4 (.list 8), .nothing),
    (.enter 1 4, .nothing), (.reset 3, .nothing), (.store 1 2, .returns (some 7)), (.fetch 1 1 (.list 7), .nothing),
    (.enter 1 1, .nothing)] : List (Event Nat)) s :=
  ⟨_, .next (.next (.next (.next (.next (.next (.next (.next .start rfl) rfl) rfl) rfl) rfl) rfl) rfl) rfl⟩

end Verif
