import Verif.SpecOstream
import Mathlib.Data.List.Forall2

/-!
# Lemmas about the stream manipulators
-/

namespace Verif

namespace Ostream

open Spec

/-- What the state of one stream must be for given settings. -/
def Agrees (w : World) (st : Stream) (i : BitVec 32 × Str) : Prop :=
  (st.pword = none ∧ st.callbacks = 0 ∧ i = (STRING_IP_ALL, [','])) ∨
  (∃ p, st.pword = some p ∧ st.callbacks = 1 ∧ w.heap p = some { mode := i.1, sep := i.2 })

/-- The invariant of every history. -/
structure Inv (w : World) (m : Streams) : Prop where
  below : ∀ p, w.heap p ≠ none → p < w.next
  dead : ∀ s, m s = none → w.streams s = none
  alive : ∀ s i, m s = some i → ∃ st, w.streams s = some st ∧ Agrees w st i
  unique : ∀ s t p, Owns w s p → Owns w t p → s = t
  owned : ∀ p, w.heap p ≠ none → ∃ s, Owns w s p

theorem update_same {β : Type} (f : Nat → Option β) (k : Nat) (v : Option β) : update f k v k = v := by simp [update]

theorem update_ne {β : Type} (f : Nat → Option β) {k x : Nat} (v : Option β) (h : x ≠ k) : update f k v x = f x := by
  simp [update, h]

theorem update_update {β : Type} (f : Nat → Option β) (k : Nat) (u v : Option β) : update (update f k u) k v = update f k v := by
  funext x
  unfold update
  split <;> rfl

theorem inv_init : Inv World.init (fun _ => none) :=
  ⟨fun _ h => absurd rfl h, fun _ _ => rfl, (fun _ _ h => nomatch h), (fun _ _ _ h => nomatch h.choose_spec.1), fun _ h => absurd rfl h⟩

/-- The block of an owner is alive. -/
theorem Inv.live {w : World} {m : Streams} (h : Inv w m) {s p : Nat} (ho : Owns w s p) : ∃ i, m s = some i ∧ w.heap p = some { mode := i.1, sep := i.2 } := by
  obtain ⟨st, hs, hp⟩ := ho
  cases hm : m s with
  | none =>
    rw [h.dead s hm] at hs
    cases hs
  | some i =>
    obtain ⟨st', hs', ha⟩ := h.alive s i hm
    rw [hs] at hs'
    cases hs'
    rcases ha with ⟨h0, _⟩ | ⟨q, hq, _, hh⟩
    · rw [h0] at hp
      cases hp
    · rw [hq] at hp
      cases hp
      exact ⟨i, rfl, hh⟩

/-- The callbacks at the end of the life of a stream free its block. -/
theorem erase_inv {w : World} {m : Streams} (h : Inv w m) {s : Nat} {st : Stream} {i : BitVec 32 × Str} (hm : m s = some i)
    (hs : w.streams s = some st) :
    ∃ w', times (eraseEvent s) st.callbacks w = .ok w' ∧ (∀ x, x ≠ s → w'.streams x = w.streams x) ∧
      Inv { w' with streams := update w'.streams s none } (update m s none) := by
  obtain ⟨st', hs', ha⟩ := h.alive s i hm
  rw [hs] at hs'
  cases hs'
  rcases ha with ⟨h0, hc, _⟩ | ⟨q, hq, hc, hh⟩
  · refine ⟨w, by rw [hc]; rfl, fun _ _ => rfl, ?_⟩
    have hno : ∀ t p, Owns { w with streams := update w.streams s none } t p → Owns w t p := by
      intro t p ⟨x, hx, hp⟩
      by_cases e : t = s
      · rw [e] at hx
        dsimp only at hx
        rw [update_same] at hx
        cases hx
      · dsimp only at hx
        rw [update_ne _ _ e] at hx
        exact ⟨x, hx, hp⟩
    refine ⟨h.below, ?_, ?_, fun a b p ha hb => h.unique a b p (hno _ _ ha) (hno _ _ hb), ?_⟩
    · intro t ht
      by_cases e : t = s
      · rw [e]
        exact update_same _ _ _
      · rw [update_ne _ _ e] at ht
        dsimp only
        rw [update_ne _ _ e]
        exact h.dead t ht
    · intro t j ht
      by_cases e : t = s
      · rw [e, update_same] at ht
        cases ht
      · rw [update_ne _ _ e] at ht
        dsimp only
        rw [update_ne _ _ e]
        exact h.alive t j ht
    · intro p hp
      obtain ⟨t, x, hx, hxp⟩ := h.owned p hp
      refine ⟨t, x, ?_, hxp⟩
      have e : t ≠ s := by
        intro e
        rw [e, hs] at hx
        cases hx
        rw [h0] at hxp
        cases hxp
      dsimp only
      rw [update_ne _ _ e]
      exact hx
  · have hrun : times (eraseEvent s) st.callbacks w = .ok
        { heap := update w.heap q none, next := w.next, streams := update w.streams s (some { st with pword := none }) } := by
      rw [hc]
      simp only [times, eraseEvent, stream, hs, hq, deref, hh, Res.bind_ok, hc]
    refine ⟨_, hrun, fun x hx => update_ne _ _ hx, ?_⟩
    dsimp only
    rw [update_update]
    have hsq : Owns w s q := ⟨st, hs, hq⟩
    have hno : ∀ t p, Owns { heap := update w.heap q none, next := w.next, streams := update w.streams s none } t p →
        t ≠ s ∧ Owns w t p := by
      intro t p ⟨x, hx, hp⟩
      by_cases e : t = s
      · rw [e] at hx
        dsimp only at hx
        rw [update_same] at hx
        cases hx
      · dsimp only at hx
        rw [update_ne _ _ e] at hx
        exact ⟨e, x, hx, hp⟩
    refine ⟨?_, ?_, ?_, fun a b p ha hb => h.unique a b p (hno _ _ ha).2 (hno _ _ hb).2, ?_⟩
    · intro p hp
      dsimp only at hp
      by_cases e : p = q
      · rw [e, update_same] at hp
        exact absurd rfl hp
      · rw [update_ne _ _ e] at hp
        exact h.below p hp
    · intro t ht
      by_cases e : t = s
      · rw [e]
        exact update_same _ _ _
      · rw [update_ne _ _ e] at ht
        dsimp only
        rw [update_ne _ _ e]
        exact h.dead t ht
    · intro t j ht
      by_cases e : t = s
      · rw [e, update_same] at ht
        cases ht
      · rw [update_ne _ _ e] at ht
        dsimp only
        rw [update_ne _ _ e]
        obtain ⟨x, hx, ha⟩ := h.alive t j ht
        refine ⟨x, hx, ?_⟩
        rcases ha with ha | ⟨p, hp, hc', hh'⟩
        · exact Or.inl ha
        · refine Or.inr ⟨p, hp, hc', ?_⟩
          dsimp only
          rw [update_ne]
          · exact hh'
          · intro e'
            rw [e'] at hp
            exact e (h.unique t s q ⟨x, hx, hp⟩ hsq)
    · intro p hp
      dsimp only at hp
      by_cases e : p = q
      · rw [e, update_same] at hp
        exact absurd rfl hp
      · rw [update_ne _ _ e] at hp
        obtain ⟨t, x, hx, hxp⟩ := h.owned p hp
        refine ⟨t, x, ?_, hxp⟩
        have e' : t ≠ s := by
          intro e'
          rw [e', hs] at hx
          cases hx
          rw [hq] at hxp
          cases hxp
          exact e rfl
        dsimp only
        rw [update_ne _ _ e']
        exact hx

/-- A new stream. -/
theorem inv_add_none {w : World} {m : Streams} (h : Inv w m) {s : Nat} (hm : m s = none) :
    Inv { w with streams := update w.streams s (some { pword := none, callbacks := 0 }) } (update m s (some (STRING_IP_ALL, [',']))) := by
  have hd := h.dead s hm
  have hno : ∀ t p, Owns { w with streams := update w.streams s (some { pword := none, callbacks := 0 }) } t p ↔ Owns w t p := by
    intro t p
    unfold Owns
    by_cases e : t = s
    · rw [e]
      dsimp only
      rw [update_same, hd]
      constructor
      · rintro ⟨x, hx, hp⟩
        cases hx
        cases hp
      · rintro ⟨x, hx, _⟩
        cases hx
    · dsimp only
      rw [update_ne _ _ e]
  refine ⟨h.below, ?_, ?_, fun a b p ha hb => h.unique a b p ((hno _ _).1 ha) ((hno _ _).1 hb), ?_⟩
  · intro t ht
    by_cases e : t = s
    · rw [e, update_same] at ht
      cases ht
    · rw [update_ne _ _ e] at ht
      dsimp only
      rw [update_ne _ _ e]
      exact h.dead t ht
  · intro t j ht
    by_cases e : t = s
    · rw [e, update_same] at ht
      cases ht
      rw [e]
      exact ⟨_, update_same _ _ _, Or.inl ⟨rfl, rfl, rfl⟩⟩
    · rw [update_ne _ _ e] at ht
      dsimp only
      rw [update_ne _ _ e]
      exact h.alive t j ht
  · intro p hp
    obtain ⟨t, ht⟩ := h.owned p hp
    exact ⟨t, (hno _ _).2 ht⟩

/-- A new stream with a new block. -/
theorem inv_add_block {w : World} {m : Streams} (h : Inv w m) {s : Nat} (hm : m s = none) (i : BitVec 32 × Str) :
    Inv { heap := update w.heap w.next (some { mode := i.1, sep := i.2 }), next := w.next + 1, streams := update w.streams s (some { pword := some w.next, callbacks := 1 }) }
      (update m s (some i)) := by
  have hd := h.dead s hm
  have hfresh : ∀ t, ¬ Owns w t w.next := by
    intro t ht
    obtain ⟨_, _, hh⟩ := h.live ht
    exact Nat.lt_irrefl _ (h.below w.next (by rw [hh]; exact fun h => nomatch h))
  have hno : ∀ t p, Owns { heap := update w.heap w.next (some { mode := i.1, sep := i.2 }), next := w.next + 1, streams := update w.streams s (some { pword := some w.next, callbacks := 1 }) } t p ↔
      (t = s ∧ p = w.next) ∨ (t ≠ s ∧ Owns w t p) := by
    intro t p
    unfold Owns
    by_cases e : t = s
    · subst e
      dsimp only
      rw [update_same]
      constructor
      · rintro ⟨x, hx, hp⟩
        cases hx
        cases hp
        exact Or.inl ⟨rfl, rfl⟩
      · rintro (⟨_, rfl⟩ | ⟨e, _⟩)
        · exact ⟨_, rfl, rfl⟩
        · exact absurd rfl e
    · dsimp only
      rw [update_ne _ _ e]
      constructor
      · exact fun h => Or.inr ⟨e, h⟩
      · rintro (⟨e', _⟩ | ⟨_, h⟩)
        · exact absurd e' e
        · exact h
  refine ⟨?_, ?_, ?_, ?_, ?_⟩
  · intro p hp
    dsimp only at hp ⊢
    by_cases e : p = w.next
    · omega
    · rw [update_ne _ _ e] at hp
      have := h.below p hp
      omega
  · intro t ht
    by_cases e : t = s
    · rw [e, update_same] at ht
      cases ht
    · rw [update_ne _ _ e] at ht
      dsimp only
      rw [update_ne _ _ e]
      exact h.dead t ht
  · intro t j ht
    by_cases e : t = s
    · rw [e, update_same] at ht
      cases ht
      rw [e]
      exact ⟨_, update_same _ _ _, Or.inr ⟨_, rfl, rfl, update_same _ _ _⟩⟩
    · rw [update_ne _ _ e] at ht
      dsimp only
      rw [update_ne _ _ e]
      obtain ⟨x, hx, ha⟩ := h.alive t j ht
      refine ⟨x, hx, ?_⟩
      rcases ha with ha | ⟨p, hp, hc', hh'⟩
      · exact Or.inl ha
      · refine Or.inr ⟨p, hp, hc', ?_⟩
        dsimp only
        rw [update_ne]
        · exact hh'
        · intro e'
          rw [e'] at hp
          exact hfresh t ⟨x, hx, hp⟩
  · intro a b p ha hb
    rcases (hno _ _).1 ha with ⟨ha, hp⟩ | ⟨_, ha⟩ <;> rcases (hno _ _).1 hb with ⟨hb, hp'⟩ | ⟨_, hb⟩
    · rw [ha, hb]
    · rw [hp] at hb
      exact absurd hb (hfresh b)
    · rw [hp'] at ha
      exact absurd ha (hfresh a)
    · exact h.unique a b p ha hb
  · intro p hp
    dsimp only at hp
    by_cases e : p = w.next
    · exact ⟨s, (hno _ _).2 (Or.inl ⟨rfl, e⟩)⟩
    · rw [update_ne _ _ e] at hp
      obtain ⟨t, ht⟩ := h.owned p hp
      refine ⟨t, (hno _ _).2 (Or.inr ⟨?_, ht⟩)⟩
      intro e'
      obtain ⟨x, hx, _⟩ := ht
      rw [e', hd] at hx
      cases hx

/-- A change of the settings in the block of a stream. -/
theorem inv_set_block {w : World} {m : Streams} (h : Inv w m) {s p : Nat} (ho : Owns w s p) (i : BitVec 32 × Str) :
    Inv { w with heap := update w.heap p (some { mode := i.1, sep := i.2 }) } (update m s (some i)) := by
  obtain ⟨j, hj, hh⟩ := h.live ho
  have hall : ∀ q, update w.heap p (some { mode := i.1, sep := i.2 }) q ≠ none → w.heap q ≠ none := by
    intro q hq
    by_cases e : q = p
    · rw [e, hh]
      exact fun h => nomatch h
    · rw [update_ne _ _ e] at hq
      exact hq
  refine ⟨fun q hq => h.below q (hall q hq), ?_, ?_, h.unique, fun q hq => h.owned q (hall q hq)⟩
  · intro t ht
    by_cases e : t = s
    · rw [e, update_same] at ht
      cases ht
    · rw [update_ne _ _ e] at ht
      exact h.dead t ht
  · intro t k ht
    by_cases e : t = s
    · rw [e, update_same] at ht
      cases ht
      obtain ⟨st, hs, hp⟩ := ho
      obtain ⟨st', hs', ha⟩ := h.alive s j hj
      rw [hs] at hs'
      cases hs'
      rw [e]
      refine ⟨st, hs, Or.inr ⟨p, hp, ?_, update_same _ _ _⟩⟩
      rcases ha with ⟨h0, _⟩ | ⟨_, _, hc, _⟩
      · rw [h0] at hp
        cases hp
      · exact hc
    · rw [update_ne _ _ e] at ht
      obtain ⟨x, hx, ha⟩ := h.alive t k ht
      refine ⟨x, hx, ?_⟩
      rcases ha with ha | ⟨q, hq, hc, hh'⟩
      · exact Or.inl ha
      · refine Or.inr ⟨q, hq, hc, ?_⟩
        dsimp only
        rw [update_ne]
        · exact hh'
        · intro e'
          rw [e'] at hq
          exact e (h.unique t s p ⟨x, hx, hq⟩ ho)

/-- The settings of the stream after the allocation. -/
theorem ensure_inv {w : World} {m : Streams} (h : Inv w m) {s : Nat} {i : BitVec 32 × Str} (hm : m s = some i) :
    ∃ w' p, ensure w s = .ok (w', p) ∧ Inv w' m ∧ Owns w' s p ∧ w'.heap p = some { mode := i.1, sep := i.2 } := by
  obtain ⟨st, hs, ha⟩ := h.alive s i hm
  rcases ha with ⟨h0, hc, hi⟩ | ⟨q, hq, hc, hh⟩
  · obtain ⟨w', hr, _, hinv⟩ := erase_inv h hm hs
    rw [hc] at hr
    cases hr
    have := inv_add_block hinv (update_same _ _ _) i
    dsimp only at this
    rw [update_update, update_update] at this
    have hmm : update m s (some i) = m := by
      funext x
      by_cases e : x = s
      · rw [e, update_same, hm]
      · rw [update_ne _ _ e]
    rw [hmm] at this
    refine ⟨_, w.next, ?_, this, ⟨_, update_same _ _ _, rfl⟩, update_same _ _ _⟩
    simp only [ensure, stream, hs, h0, hc, alloc, Res.bind_ok, hi]
    rfl
  · refine ⟨w, q, ?_, h, ⟨st, hs, hq⟩, hh⟩
    simp only [ensure, stream, hs, hq, Res.bind_ok]

theorem inv_swap {w : World} {m : Streams} (h : Inv w m) {a b : Nat} {i j : BitVec 32 × Str} {x y : Stream} (ha : m a = some i) (hb : m b = some j)
    (hx : w.streams a = some x) (hy : w.streams b = some y) :
    Inv { w with streams := update (update w.streams a (some y)) b (some x) } (update (update m a (some j)) b (some i)) := by
  have hax : Agrees w x i := by
    obtain ⟨st, hs, h⟩ := h.alive a i ha
    rw [hx] at hs
    cases hs
    exact h
  have hby : Agrees w y j := by
    obtain ⟨st, hs, h⟩ := h.alive b j hb
    rw [hy] at hs
    cases hs
    exact h
  let f : Nat → Nat := fun t => if t = b then a else if t = a then b else t
  have hf : ∀ t, update (update w.streams a (some y)) b (some x) t = w.streams (f t) := by
    intro t
    unfold update
    show _ = w.streams (if t = b then a else if t = a then b else t)
    by_cases e : t = b
    · rw [if_pos e, if_pos e, hx]
    · rw [if_neg e, if_neg e]
      by_cases e' : t = a
      · rw [if_pos e', if_pos e', hy]
      · rw [if_neg e', if_neg e']
  have hff : ∀ t, f (f t) = t := by
    intro t
    show (if (if t = b then a else if t = a then b else t) = b then a else if (if t = b then a else if t = a then b else t) = a then b else
      (if t = b then a else if t = a then b else t)) = t
    by_cases e : t = b
    · rw [if_pos e]
      by_cases e' : a = b
      · rw [if_pos e', e', e]
      · rw [if_neg e', if_pos rfl, e]
    · rw [if_neg e]
      by_cases e' : t = a
      · rw [if_pos e', if_pos rfl, e']
      · rw [if_neg e', if_neg e, if_neg e']
  have hm : ∀ t, update (update m a (some j)) b (some i) t = m (f t) := by
    intro t
    unfold update
    show _ = m (if t = b then a else if t = a then b else t)
    by_cases e : t = b
    · rw [if_pos e, if_pos e, ha]
    · rw [if_neg e, if_neg e]
      by_cases e' : t = a
      · rw [if_pos e', if_pos e', hb]
      · rw [if_neg e', if_neg e']
  have hown : ∀ t p, Owns { w with streams := update (update w.streams a (some y)) b (some x) } t p ↔ Owns w (f t) p := by
    intro t p
    unfold Owns
    dsimp only
    rw [hf]
  refine ⟨h.below, ?_, ?_, ?_, ?_⟩
  · intro t ht
    rw [hm] at ht
    dsimp only
    rw [hf]
    exact h.dead _ ht
  · intro t k ht
    rw [hm] at ht
    dsimp only
    rw [hf]
    exact h.alive _ _ ht
  · intro s t p hs ht
    have := h.unique _ _ p ((hown _ _).1 hs) ((hown _ _).1 ht)
    rw [← hff s, this, hff]
  · intro p hp
    obtain ⟨t, ht⟩ := h.owned p hp
    refine ⟨f t, (hown _ _).2 ?_⟩
    rw [hff]
    exact ht

/-- Every operation keeps the invariant. -/
theorem op_inv {w : World} {m m' : Streams} (h : Inv w m) {op : Op} (ho : streamOp m op = some m') :
    ∃ w', op.run w = .ok w' ∧ Inv w' m' := by
  cases op with
  | create s =>
    simp only [streamOp] at ho
    split at ho
    · cases ho
      rename_i hm
      exact ⟨_, rfl, inv_add_none h hm⟩
    · cases ho
  | setMode s mode =>
    cases hm : m s with
    | none =>
      rw [streamOp, hm] at ho
      cases ho
    | some i =>
      rw [streamOp, hm] at ho
      cases ho
      obtain ⟨w', p, he, hinv, hown, hh⟩ := ensure_inv h hm
      refine ⟨_, ?_, inv_set_block hinv hown (mode, i.2)⟩
      simp only [Op.run, Ostream.setMode, he, deref, hh, Res.bind_ok]
  | setSep s sep =>
    cases hm : m s with
    | none =>
      rw [streamOp, hm] at ho
      cases ho
    | some i =>
      rw [streamOp, hm] at ho
      cases ho
      obtain ⟨w', p, he, hinv, hown, hh⟩ := ensure_inv h hm
      refine ⟨_, ?_, inv_set_block hinv hown (i.1, sep)⟩
      simp only [Op.run, Ostream.setSep, he, deref, hh, Res.bind_ok]
  | copyfmt dst src =>
    cases hd : m dst with
    | none =>
      rw [streamOp, hd] at ho
      cases ho
    | some j =>
      cases hs : m src with
      | none =>
        rw [streamOp, hd, hs] at ho
        cases ho
      | some i =>
        rw [streamOp, hd, hs] at ho
        dsimp only at ho
        cases ho
        obtain ⟨d, hwd, _⟩ := h.alive dst j hd
        obtain ⟨s, hws, hag⟩ := h.alive src i hs
        by_cases e : dst = src
        · refine ⟨w, ?_, ?_⟩
          · simp only [Op.run, Ostream.copyfmt, stream, hwd, hws, Res.bind_ok, if_pos e]
          · have : (fun x => if x = dst then some i else m x) = m := by
              funext x
              split
              · rename_i e'
                rw [e', e, hs]
              · rfl
            rw [this]
            exact h
        · obtain ⟨w', hr, hsame, hinv⟩ := erase_inv h hd hwd
          have hag' : ∃ st, w'.streams src = some st ∧ Agrees w' st i := by
            obtain ⟨st, hst, ha⟩ := hinv.alive src i (by rw [update_ne _ _ (Ne.symm e)]; exact hs)
            dsimp only at hst
            rw [update_ne _ _ (Ne.symm e)] at hst
            exact ⟨st, hst, ha⟩
          rw [hsame src (Ne.symm e), hws] at hag'
          obtain ⟨st, hst, ha⟩ := hag'
          cases hst
          have hstart : Op.run w (.copyfmt dst src) =
              times (copyEvent dst) s.callbacks { w' with streams := update w'.streams dst (some s) } := by
            simp only [Op.run, Ostream.copyfmt, stream, hwd, hws, Res.bind_ok, if_neg e, hr]
          rw [hstart]
          rcases ha with ⟨h0, hc, hi⟩ | ⟨q, hq, hc, hh⟩
          · have := inv_add_none hinv (update_same _ _ _)
            dsimp only at this
            rw [update_update, update_update, ← hi] at this
            refine ⟨_, ?_, this⟩
            rw [hc]
            have hsv : s = { pword := none, callbacks := 0 } := by
              cases s
              simp only at h0 hc
              rw [h0, hc]
            rw [hsv]
            rfl
          · have := inv_add_block hinv (update_same _ _ _) i
            dsimp only at this
            rw [update_update, update_update] at this
            refine ⟨_, ?_, this⟩
            rw [hc]
            simp only [times, copyEvent, stream, update_same, hq, deref, hh, alloc, Res.bind_ok, update_update, hc]
  | swap a b =>
    cases ha : m a with
    | none =>
      rw [streamOp, ha] at ho
      cases ho
    | some i =>
      cases hb : m b with
      | none =>
        rw [streamOp, ha, hb] at ho
        cases ho
      | some j =>
        rw [streamOp, ha, hb] at ho
        dsimp only at ho
        cases ho
        obtain ⟨x, hx, _⟩ := h.alive a i ha
        obtain ⟨y, hy, _⟩ := h.alive b j hb
        refine ⟨_, ?_, inv_swap h ha hb hx hy⟩
        simp only [Op.run, Ostream.swap, stream, hx, hy, Res.bind_ok]
  | destroy s =>
    cases hm : m s with
    | none =>
      rw [streamOp, hm] at ho
      cases ho
    | some i =>
      rw [streamOp, hm] at ho
      cases ho
      obtain ⟨st, hs, _⟩ := h.alive s i hm
      obtain ⟨w', hr, _, hinv⟩ := erase_inv h hm hs
      refine ⟨_, ?_, hinv⟩
      simp only [Op.run, Ostream.destroy, stream, hs, Res.bind_ok, hr]

/-- Every history keeps the invariant. -/
theorem ops_inv {w : World} {m m' : Streams} (h : Inv w m) {ops : List Op} (ho : streamOps m ops = some m') :
    ∃ w', runAll w ops = .ok w' ∧ Inv w' m' := by
  induction ops generalizing w m with
  | nil =>
    cases ho
    exact ⟨w, rfl, h⟩
  | cons op ops ih =>
    rw [streamOps] at ho
    cases hm : streamOp m op with
    | none =>
      rw [hm] at ho
      cases ho
    | some m₁ =>
      rw [hm] at ho
      obtain ⟨w₁, hr, hinv⟩ := op_inv h hm
      obtain ⟨w₂, hr₂, hinv₂⟩ := ih hinv ho
      exact ⟨w₂, by rw [runAll, hr, Res.bind_ok]; exact hr₂, hinv₂⟩

/-- The settings read by the output operators. -/
theorem info_of_inv {w : World} {m : Streams} (h : Inv w m) {s : Nat} {i : BitVec 32 × Str} (hm : m s = some i) :
    info w s = .ok { mode := i.1, sep := i.2 } := by
  obtain ⟨st, hs, ha⟩ := h.alive s i hm
  rcases ha with ⟨h0, _, hi⟩ | ⟨q, hq, _, hh⟩
  · simp only [info, stream, hs, h0, Res.bind_ok, hi]
    rfl
  · simp only [info, stream, hs, hq, deref, hh, Res.bind_ok]

theorem intercalate_cons (sep t : Str) (ts : List Str) : sep.intercalate (t :: ts) = t ++ (ts.map fun t => sep ++ t).flatten := by
  induction ts generalizing t with
  | nil => simp [List.intercalate]
  | cons u ts ih =>
    have : sep.intercalate (t :: u :: ts) = t ++ (sep ++ sep.intercalate (u :: ts)) := by simp [List.intercalate, List.intersperse]
    rw [this, ih]
    simp [List.append_assoc]

/-- The texts of the addresses of a list. -/
theorem printLoop_of_info {db : NetDb} {w : World} {s : Nat} {i : Info} (hi : info w s = .ok i) (sep : Str) {l : List Addr} {ts : List Str}
    (h : List.Forall₂ (fun a t => a.toIpv4or6String db i.mode = .ok t) l ts) (first : Bool) :
    printLoop db w s sep first l = .ok (if first then sep.intercalate ts else (ts.map fun t => sep ++ t).flatten) := by
  induction h generalizing first with
  | nil => cases first <;> simp [printLoop, List.intercalate]
  | cons ha _ ih =>
    rename_i a t l ts _
    rw [printLoop, printAddr, hi, Res.bind_ok, ha, Res.bind_ok, ih false, Res.bind_ok]
    cases first
    · simp [List.append_assoc]
    · simp only [if_true, intercalate_cons, List.nil_append]
      simp

/-- The texts of the ranges of a list. -/
theorem toStrAll_of {db : NetDb} {mode : BitVec 32} (sep : Str) {l : List Range} {ts : List Str}
    (h : List.Forall₂ (fun r t => r.toStr db mode = .ok t) l ts) (first : Bool) :
    Range.toStrAll db mode sep l first = .ok (if first then sep.intercalate ts else (ts.map fun t => sep ++ t).flatten) := by
  induction h generalizing first with
  | nil => cases first <;> simp [Range.toStrAll, List.intercalate]
  | cons ha _ ih =>
    rw [Range.toStrAll, ha, Res.bind_ok, ih false, Res.bind_ok]
    cases first
    · simp [List.append_assoc]
    · simp only [if_true, intercalate_cons, List.nil_append]
      simp

end Ostream

end Verif
