import Verif.SpecIface

/-!
# Lemmas about the cache of the interfaces
-/

namespace Verif

open Spec Cache

variable {α : Type}

/-- The first critical section of `get_local_addresses()`. -/
def IsEnter : Event α → Prop
  | (.enter _ _, _) => True
  | _ => False

/-- What is true after every history with a clock which does not go back. -/
structure CacheInv (h : List (Event α)) (s : State α) : Prop where
  ttl : s.globals.ttl = ttlOf h
  fetching : ∀ t, s.pc t = .fetching → ∃ h1 h2 c, h = h1 ++ (.enter t c, .nothing) :: h2 ∧ ∀ e ∈ h1, ¬ IsOf t e
  fetched : ∀ t l, s.pc t = .fetched l → ∃ f, HoldsList h t l f
  cache : (∃ t l f s0, s.globals.list = some l ∧ Stored h t l f s0 (s.globals.timeout - s0).toNat ∧ s0 ≤ s.globals.timeout) ∨
    s.globals.timeout = 0 ∨ ∃ e ∈ h, IsEnter e ∧ s.globals.timeout < timeOf e

theorem holdsList_cons {h : List (Event α)} {t : Nat} {l : α} {f : Int} {e : Event α} (he : ¬ IsOf t e) (hh : HoldsList h t l f) :
    HoldsList (e :: h) t l f := by
  obtain ⟨h1, h2, rfl, h3⟩ := hh
  exact ⟨e :: h1, h2, rfl, fun x hx => (List.mem_cons.1 hx).elim (fun hx => hx ▸ he) (h3 x)⟩

theorem stored_cons {h : List (Event α)} {t : Nat} {l : α} {f s : Int} {ttl : Nat} {e : Event α} (he : ¬ IsStore e ∧ ¬ IsReset e)
    (hh : Stored h t l f s ttl) : Stored (e :: h) t l f s ttl := by
  obtain ⟨h1, h2, rfl, h3, h4⟩ := hh
  exact ⟨e :: h1, h2, rfl, fun x hx => (List.mem_cons.1 hx).elim (fun hx => hx ▸ he) (h3 x), h4⟩

theorem fetching_cons {h : List (Event α)} {t : Nat} {e : Event α} (he : ¬ IsOf t e)
    (hh : ∃ h1 h2 c, h = h1 ++ (.enter t c, .nothing) :: h2 ∧ ∀ e ∈ h1, ¬ IsOf t e) :
    ∃ h1 h2 c, e :: h = h1 ++ (.enter t c, .nothing) :: h2 ∧ ∀ e ∈ h1, ¬ IsOf t e := by
  obtain ⟨h1, h2, c, rfl, h3⟩ := hh
  exact ⟨e :: h1, h2, c, rfl, fun x hx => (List.mem_cons.1 hx).elim (fun hx => hx ▸ he) (h3 x)⟩

theorem clock_tail {h : List (Event α)} {e : Event α} (hc : Clock (e :: h)) : Clock h :=
  ⟨(List.pairwise_cons.1 hc.1).2, fun x hx => hc.2 x (List.mem_cons_of_mem _ hx)⟩

theorem move_pc (s : State α) (t u : Nat) (p : Pc α) : (s.move t p).pc u = if u = t then p else s.pc u := rfl

theorem cache_cons {h : List (Event α)} {g : Globals α} {e : Event α} (he : ¬ IsStore e ∧ ¬ IsReset e)
    (hh : (∃ t l f s0, g.list = some l ∧ Stored h t l f s0 (g.timeout - s0).toNat ∧ s0 ≤ g.timeout) ∨
      g.timeout = 0 ∨ ∃ e ∈ h, IsEnter e ∧ g.timeout < timeOf e) :
    (∃ t l f s0, g.list = some l ∧ Stored (e :: h) t l f s0 (g.timeout - s0).toNat ∧ s0 ≤ g.timeout) ∨
      g.timeout = 0 ∨ ∃ x ∈ e :: h, IsEnter x ∧ g.timeout < timeOf x := by
  rcases hh with ⟨t, l, f, s0, h1, h2, h3⟩ | h | ⟨x, hx, h⟩
  · exact Or.inl ⟨t, l, f, s0, h1, stored_cons he h2, h3⟩
  · exact Or.inr (Or.inl h)
  · exact Or.inr (Or.inr ⟨x, List.mem_cons_of_mem _ hx, h⟩)

/-- The end of a first critical section which does not find a list. -/
theorem inv_miss {h : List (Event α)} {s : State α} (empty : α) {t : Nat} {now : Int} (i : CacheInv h s)
    (hd : s.globals.list = none ∨ s.globals.timeout < now) :
    CacheInv ((.enter t now, .nothing) :: h)
      ({ s with globals := { s.globals with list := some empty } }.move t .fetching) := by
  obtain ⟨i1, i2, i3, i4⟩ := i
  refine ⟨i1, ?_, ?_, ?_⟩
  · intro u hu
    rw [move_pc] at hu
    by_cases e : u = t
    · subst e
      exact ⟨[], h, now, rfl, by simp⟩
    · rw [if_neg e] at hu
      exact fetching_cons (fun h => e h.symm) (i2 u hu)
  · intro u l hu
    rw [move_pc] at hu
    by_cases e : u = t
    · rw [if_pos e] at hu
      cases hu
    · rw [if_neg e] at hu
      obtain ⟨f, hf⟩ := i3 u l hu
      exact ⟨f, holdsList_cons (fun h => e h.symm) hf⟩
  · show _ ∨ s.globals.timeout = 0 ∨ ∃ e ∈ (Action.enter t now, Out.nothing) :: h, IsEnter e ∧ s.globals.timeout < timeOf e
    rcases hd with hd | hd
    · rcases i4 with ⟨_, _, _, _, h1, _⟩ | h | ⟨x, hx, h⟩
      · rw [hd] at h1
        cases h1
      · exact Or.inr (Or.inl h)
      · exact Or.inr (Or.inr ⟨x, List.mem_cons_of_mem _ hx, h⟩)
    · exact Or.inr (Or.inr ⟨_, List.mem_cons_self, trivial, hd⟩)

/-- The thread `t` leaves the function, the cache unchanged. -/
theorem inv_leave {h : List (Event α)} {s : State α} {t : Nat} {now : Int} {answer : Answer α} {o : Out α} (i : CacheInv h s)
    (p : Pc α) (hp1 : p ≠ .fetching) (hp2 : ∀ l, p = .fetched l → answer = .list l ∧ o = .nothing) :
    CacheInv ((.fetch t now answer, o) :: h) (s.move t p) := by
  obtain ⟨i1, i2, i3, i4⟩ := i
  refine ⟨i1, ?_, ?_, cache_cons ⟨id, id⟩ i4⟩
  · intro u hu
    rw [move_pc] at hu
    by_cases e : u = t
    · rw [if_pos e] at hu
      exact absurd hu hp1
    · rw [if_neg e] at hu
      exact fetching_cons (fun h => e h.symm) (i2 u hu)
  · intro u l hu
    rw [move_pc] at hu
    by_cases e : u = t
    · rw [if_pos e] at hu
      obtain ⟨rfl, rfl⟩ := hp2 l hu
      subst e
      exact ⟨now, [], h, rfl, by simp⟩
    · rw [if_neg e] at hu
      obtain ⟨f, hf⟩ := i3 u l hu
      exact ⟨f, holdsList_cons (fun h => e h.symm) hf⟩

/-- The invariant holds after every execution. -/
theorem cache_inv {empty : α} {h : List (Event α)} {s : State α} (hx : Exec empty h s) : CacheInv h s := by
  induction hx with
  | start =>
    exact ⟨rfl, (fun t h => nomatch h), (fun t l h => nomatch h), Or.inr (Or.inl rfl)⟩
  | @next h s s' a o _ hstep ih =>
    cases a with
    | enter t now =>
      rw [step] at hstep
      cases hp : s.pc t with
      | idle =>
        rw [hp] at hstep
        dsimp only at hstep
        cases hl : s.globals.list with
        | none =>
          rw [hl] at hstep
          cases hstep
          exact inv_miss empty ih (Or.inl hl)
        | some l =>
          rw [hl] at hstep
          dsimp only at hstep
          split at hstep
          · cases hstep
            obtain ⟨i1, i2, i3, i4⟩ := ih
            refine ⟨i1, ?_, ?_, cache_cons ⟨id, id⟩ i4⟩
            · intro u hu
              refine fetching_cons (fun h => ?_) (i2 u hu)
              have h : t = u := h
              rw [← h, hp] at hu
              cases hu
            · intro u l hu
              obtain ⟨f, hf⟩ := i3 u l hu
              refine ⟨f, holdsList_cons (fun h => ?_) hf⟩
              have h : t = u := h
              rw [← h, hp] at hu
              cases hu
          · rename_i hn
            cases hstep
            exact inv_miss empty ih (Or.inr (by omega))
      | fetching => rw [hp] at hstep; cases hstep
      | fetched l => rw [hp] at hstep; cases hstep
    | fetch t now answer =>
      rw [step.eq_def] at hstep
      dsimp only at hstep
      cases hp : s.pc t with
      | idle => rw [hp] at hstep; cases hstep
      | fetched l => rw [hp] at hstep; cases hstep
      | fetching =>
        rw [hp] at hstep
        cases answer with
        | list l =>
          cases hstep
          exact inv_leave ih _ (fun h => nomatch h) (fun l' h => by cases h; exact ⟨rfl, rfl⟩)
        | fails =>
          cases hstep
          exact inv_leave ih _ (fun h => nomatch h) (fun l' h => nomatch h)
        | throws =>
          cases hstep
          exact inv_leave ih _ (fun h => nomatch h) (fun l' h => nomatch h)
    | store t now =>
      rw [step] at hstep
      cases hp : s.pc t with
      | idle => rw [hp] at hstep; cases hstep
      | fetching => rw [hp] at hstep; cases hstep
      | fetched l =>
        rw [hp] at hstep
        cases hstep
        obtain ⟨i1, i2, i3, i4⟩ := ih
        refine ⟨i1, ?_, ?_, Or.inl ?_⟩
        · intro u hu
          rw [move_pc] at hu
          by_cases e : u = t
          · rw [if_pos e] at hu
            cases hu
          · rw [if_neg e] at hu
            exact fetching_cons (fun h => e h.symm) (i2 u hu)
        · intro u l hu
          rw [move_pc] at hu
          by_cases e : u = t
          · rw [if_pos e] at hu
            cases hu
          · rw [if_neg e] at hu
            obtain ⟨f, hf⟩ := i3 u l hu
            exact ⟨f, holdsList_cons (fun h => e h.symm) hf⟩
        · obtain ⟨f, hf⟩ := i3 t l hp
          refine ⟨t, l, f, now, rfl, ⟨[], h, rfl, by simp, hf, ?_⟩, ?_⟩
          · show (now + (s.globals.ttl : Int) - now).toNat = _
            rw [← i1]
            omega
          · show now ≤ now + (s.globals.ttl : Int)
            omega
    | reset now =>
      cases hstep
      obtain ⟨i1, i2, i3, i4⟩ := ih
      refine ⟨i1, fun u hu => fetching_cons id (i2 u hu), fun u l hu => ?_, Or.inr (Or.inl rfl)⟩
      obtain ⟨f, hf⟩ := i3 u l hu
      exact ⟨f, holdsList_cons id hf⟩
    | setTtl now d =>
      cases hstep
      obtain ⟨i1, i2, i3, i4⟩ := ih
      refine ⟨rfl, fun u hu => fetching_cons id (i2 u hu), fun u l hu => ?_, cache_cons ⟨id, id⟩ i4⟩
      obtain ⟨f, hf⟩ := i3 u l hu
      exact ⟨f, holdsList_cons id hf⟩

/-- A list found in the cache, when no first critical section which came before had a later time. -/
theorem exec_hit_of {empty : α} {h : List (Event α)} {s : State α} {t : Nat} {r : Int} {l : α}
    (hx : Exec empty ((.enter t r, .returns (some l)) :: h) s) (hr : 0 < r) (hc : ∀ x ∈ h, IsEnter x → timeOf x ≤ r) :
    ∃ t' f s0 ttl, Stored h t' l f s0 ttl ∧ r ≤ s0 + ttl := by
  cases hx with
  | @next _ s0 _ _ _ hx hstep =>
    have i4 := (cache_inv hx).cache
    rw [step] at hstep
    split at hstep
    · split at hstep
      · rename_i l' hl
        split at hstep
        · rename_i ht
          cases hstep
          rcases i4 with ⟨t', l', f, s1, h1, h2, h3⟩ | h | ⟨x, hx, he, h⟩
          · rw [hl] at h1
            cases h1
            exact ⟨t', f, s1, _, h2, by omega⟩
          · omega
          · have := hc x hx he
            omega
        · cases hstep
      · cases hstep
    · cases hstep

/-- A list found in the cache. -/
theorem exec_hit {empty : α} {h : List (Event α)} {s : State α} {t : Nat} {r : Int} {l : α}
    (hx : Exec empty ((.enter t r, .returns (some l)) :: h) s) (hc : Clock ((Action.enter t r, Out.returns (some l)) :: h)) :
    ∃ t' f s0 ttl, Stored h t' l f s0 ttl ∧ r ≤ s0 + ttl :=
  exec_hit_of hx (hc.2 _ List.mem_cons_self) fun x hx _ => (List.pairwise_cons.1 hc.1).1 x hx

/-- A list returned by the second critical section. -/
theorem exec_store {empty : α} {h : List (Event α)} {s : State α} {t : Nat} {r : Int} {l : Option α}
    (hx : Exec empty ((.store t r, .returns l) :: h) s) : ∃ l' f, l = some l' ∧ HoldsList h t l' f := by
  cases hx with
  | @next _ s0 _ _ _ hx hstep =>
    have i3 := (cache_inv hx).fetched
    rw [step] at hstep
    cases hp : s0.pc t with
    | idle => rw [hp] at hstep; cases hstep
    | fetching => rw [hp] at hstep; cases hstep
    | fetched l' =>
      rw [hp] at hstep
      cases hstep
      obtain ⟨f, hf⟩ := i3 t l' hp
      exact ⟨l', f, rfl, hf⟩

/-- A call to `getifaddrs()` comes after a first critical section of the same thread. -/
theorem exec_fetch {empty : α} {h : List (Event α)} {s : State α} {t : Nat} {now : Int} {a : Answer α} {o : Out α}
    (hx : Exec empty ((.fetch t now a, o) :: h) s) : ∃ h1 h2 c, h = h1 ++ (.enter t c, .nothing) :: h2 ∧ ∀ e ∈ h1, ¬ IsOf t e := by
  cases hx with
  | @next _ s0 _ _ _ hx hstep =>
    have i2 := (cache_inv hx).fetching
    rw [step.eq_def] at hstep
    dsimp only at hstep
    cases hp : s0.pc t with
    | idle => rw [hp] at hstep; cases hstep
    | fetched l => rw [hp] at hstep; cases hstep
    | fetching => exact i2 t hp

/-- What happened before an event is an execution. -/
theorem exec_suffix {empty : α} {h1 h2 : List (Event α)} {s : State α} (hx : Exec empty (h1 ++ h2) s) : ∃ s', Exec empty h2 s' := by
  induction h1 generalizing s with
  | nil => exact ⟨s, hx⟩
  | cons e h1 ih =>
    cases hx with
    | next hx _ => exact ih hx

/-- The cache after a store. -/
theorem stored_cache {empty : α} {h : List (Event α)} {s : State α} (hx : Exec empty h s) {t : Nat} {l : α} {f s0 : Int} {ttl : Nat}
    (hs : Stored h t l f s0 ttl) :
    s.globals.timeout = s0 + ttl ∧ (s.globals.list = some l ∨ ∃ e ∈ h, s.globals.timeout < timeOf e) := by
  induction hx with
  | start =>
    obtain ⟨h1, h2, h, -⟩ := hs
    cases h1 <;> cases h
  | @next h s s' a o hx hstep ih =>
    obtain ⟨h1, h2, e, hn, hh, ht⟩ := hs
    cases h1 with
    | nil =>
      cases e
      have i1 := (cache_inv hx).ttl
      rw [step] at hstep
      cases hp : s.pc t with
      | idle => rw [hp] at hstep; cases hstep
      | fetching => rw [hp] at hstep; cases hstep
      | fetched l' =>
        rw [hp] at hstep
        cases hstep
        refine ⟨?_, Or.inl rfl⟩
        rw [ht, ← i1]
        rfl
    | cons x h1 =>
      cases e
      have ha := hn (a, o) List.mem_cons_self
      have ih := ih ⟨h1, h2, rfl, fun e he => hn e (List.mem_cons_of_mem _ he), hh, ht⟩
      have keep : s'.globals.timeout = s.globals.timeout → s'.globals.list = s.globals.list →
          s'.globals.timeout = s0 + ttl ∧ (s'.globals.list = some l ∨
            ∃ e ∈ (a, o) :: (h1 ++ (.store t s0, .returns (some l)) :: h2), s'.globals.timeout < timeOf e) := by
        intro e1 e2
        rw [e1, e2]
        exact ⟨ih.1, ih.2.imp id fun ⟨e, he, h⟩ => ⟨e, List.mem_cons_of_mem _ he, h⟩⟩
      cases a with
      | enter u now =>
        rw [step] at hstep
        split at hstep
        · split at hstep
          · split at hstep
            · cases hstep
              exact keep rfl rfl
            · rename_i hlt
              cases hstep
              exact ⟨ih.1, Or.inr ⟨_, List.mem_cons_self, show s.globals.timeout < now by omega⟩⟩
          · rename_i hl
            cases hstep
            refine ⟨ih.1, Or.inr ?_⟩
            rcases ih.2 with h | ⟨e, he, h⟩
            · rw [hl] at h
              cases h
            · exact ⟨e, List.mem_cons_of_mem _ he, h⟩
        · cases hstep
      | fetch u now answer =>
        rw [step.eq_def] at hstep
        dsimp only at hstep
        split at hstep
        · split at hstep
          all_goals
            cases hstep
            exact keep rfl rfl
        · cases hstep
      | store u now => exact absurd (show IsStore (Action.store u now, o) from trivial) ha.1
      | reset now => exact absurd (show IsReset (Action.reset now, o) from trivial) ha.2
      | setTtl now d =>
        cases hstep
        exact keep rfl rfl

end Verif
