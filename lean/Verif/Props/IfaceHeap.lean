import Verif.Model.IfaceHeap
import Verif.Lemmas.Iface
import Verif.Props.IfaceList

/-!
# C109: the vectors which `get_local_addresses()` returns
-/

namespace Verif

open Spec Iface

namespace Heap

/-- The vector is the whole list of an answer of the system, or the empty vector of iface.cpp:275. -/
def Done (c : Cell) : Prop :=
  match c.source with
  | some es => ofEntries es = .ok c.items
  | none => c.items = []

/-- A vector which no thread changes any more. -/
structure Published (s : State) (p : Nat) : Prop where
  below : p < s.fresh
  still : ∀ t r, s.pc t ≠ .building p r
  whole : Done (s.heap p)

/-- A vector which a thread builds: the entries which were handled are in it. -/
structure Partly (s : State) (p : Nat) (rest : List IfAddrs) : Prop where
  below : p < s.fresh
  part : ∃ es done, (s.heap p).source = some es ∧ es = done ++ rest ∧ ofEntries done = .ok (s.heap p).items

/-- The invariant. -/
structure Inv (s : State) : Prop where
  building : ∀ t p r, s.pc t = .building p r → Partly s p r
  apart : ∀ t u p r p' r', s.pc t = .building p r → s.pc u = .building p' r' → t ≠ u → p ≠ p'
  built : ∀ t p, s.pc t = .built p → Published s p
  list : ∀ p, s.list = some p → Published s p

theorem ofEntries_append {es : List IfAddrs} {e : IfAddrs} {l : List Iface} {i : Option Iface} (h : ofEntries es = .ok l)
    (he : ofEntry e = .ok i) : ofEntries (es ++ [e]) = .ok (l ++ i.toList) := by
  induction es generalizing l with
  | nil =>
    cases h
    show ofEntries [e] = _
    rw [ofEntries, he]
    cases i <;> rfl
  | cons x es ih =>
    rw [ofEntries] at h
    rw [List.cons_append, ofEntries]
    cases hx : ofEntry x with
    | throw _ => rw [hx] at h; cases h
    | ub _ => rw [hx] at h; cases h
    | ok y =>
      rw [hx] at h
      cases hes : ofEntries es with
      | throw _ => rw [hes] at h; cases h
      | ub _ => rw [hes] at h; cases h
      | ok l' =>
        rw [hes] at h
        cases h
        rw [ih hes]
        cases y <;> rfl

/-- What a transition of the thread `t` does to the others: it moves, the vectors which are not built by it remain. -/
theorem keep {s s' : State} {t : Nat} {q : Pc} (hi : Inv s) (hpc : s'.pc = fun u => if u = t then q else s.pc u)
    (hf : s.fresh ≤ s'.fresh) (hh : ∀ p, p < s.fresh → (∀ r, s.pc t ≠ .building p r) → s'.heap p = s.heap p)
    (hq : ∀ p r, q = .building p r → Partly s' p r ∧ (s.fresh ≤ p ∨ ∃ r', s.pc t = .building p r'))
    (hb : ∀ p, q = .built p → Published s' p) (hl : ∀ p, s'.list = some p → s.list = some p ∨ Published s' p) :
    (∀ p, Published s p → Published s' p ∧ s'.heap p = s.heap p) ∧ Inv s' := by
  have pub : ∀ p, Published s p → Published s' p ∧ s'.heap p = s.heap p := by
    intro p hp
    have hsame := hh p hp.below fun r => hp.still t r
    refine ⟨⟨by have := hp.below; omega, fun u r hu => ?_, hsame ▸ hp.whole⟩, hsame⟩
    rw [hpc] at hu
    dsimp only at hu
    split at hu
    · obtain ⟨-, h1 | ⟨r', h1⟩⟩ := hq p r hu
      · have := hp.below
        omega
      · exact hp.still t r' h1
    · exact hp.still u r hu
  have split' : ∀ {u : Nat} {x : Pc}, s'.pc u = x → (u = t ∧ q = x) ∨ (u ≠ t ∧ s.pc u = x) := by
    intro u x hu
    rw [hpc] at hu
    dsimp only at hu
    by_cases e : u = t
    · rw [if_pos e] at hu
      exact .inl ⟨e, hu⟩
    · rw [if_neg e] at hu
      exact .inr ⟨e, hu⟩
  refine ⟨pub, fun u p r hu => ?_, fun u v p r p' r' hu hv huv => ?_, fun u p hu => ?_, fun p hp => ?_⟩
  · rcases split' hu with ⟨-, h1⟩ | ⟨h0, h1⟩
    · exact (hq p r h1).1
    · have hp := hi.building u p r h1
      have hsame : s'.heap p = s.heap p := hh p hp.below fun r' h2 => hi.apart u t p r p r' h1 h2 h0 rfl
      refine ⟨by have := hp.below; omega, ?_⟩
      rw [hsame]
      exact hp.part
  · have cross : ∀ {u v : Nat} {p p' : Nat} {r r' : List IfAddrs}, u ≠ v → q = .building p r → u = t → v ≠ t →
        s.pc v = .building p' r' → p ≠ p' := by
      intro u v p p' r r' huv h1 h2 h3 h4
      obtain ⟨-, h5 | ⟨r'', h5⟩⟩ := hq p r h1
      · have := (hi.building v p' r' h4).below
        omega
      · exact hi.apart t v p r'' p' r' h5 h4 fun e => h3 e.symm
    rcases split' hu with ⟨h0, h1⟩ | ⟨h0, h1⟩ <;> rcases split' hv with ⟨h2, h3⟩ | ⟨h2, h3⟩
    · exact absurd (h0.trans h2.symm) huv
    · exact cross huv h1 h0 h2 h3
    · exact (cross (Ne.symm huv) h3 h2 h0 h1).symm
    · exact hi.apart u v p r p' r' h1 h3 huv
  · rcases split' hu with ⟨-, h1⟩ | ⟨-, h1⟩
    · exact hb p h1
    · exact (pub p (hi.built u p h1)).1
  · rcases hl p hp with h1 | h1
    · exact (pub p (hi.list p h1)).1
    · exact h1

theorem pc_self (s : State) (t : Nat) : s.pc = fun u => if u = t then s.pc t else s.pc u := by
  funext u
  split
  · next h => rw [h]
  · rfl

/-- A vector which is about to be given is not known to anyone. -/
theorem fresh_published {s s' : State} {t : Nat} {q : Pc} (hi : Inv s) (hpc : s'.pc = fun u => if u = t then q else s.pc u)
    (hq : ∀ p r, q ≠ .building p r) (hf : s'.fresh = s.fresh + 1) (hd : Done (s'.heap s.fresh)) : Published s' s.fresh := by
  refine ⟨by omega, fun u r hu => ?_, hd⟩
  rw [hpc] at hu
  dsimp only at hu
  split at hu
  · exact hq _ _ hu
  · have := (hi.building u _ r hu).below
    omega

theorem inv_miss {s : State} (hi : Inv s) (t : Nat) (hp : s.pc t = .idle) :
    (∀ p, Published s p → Published (miss s t) p ∧ (miss s t).heap p = s.heap p) ∧ Inv (miss s t) := by
  have hheap : ∀ q, (miss s t).heap q = if q = s.fresh then ⟨[], none⟩ else s.heap q := fun _ => rfl
  refine keep hi (t := t) (q := .fetching) rfl (Nat.le_succ _) (fun p hlt _ => ?_) (fun _ _ h => (nomatch h)) (fun _ h => (nomatch h))
    fun p hpl => .inr ?_
  · rw [hheap, if_neg (by omega)]
  · cases hpl
    refine fresh_published hi (t := t) (q := .fetching) rfl (fun _ _ h => nomatch h) rfl ?_
    rw [hheap, if_pos rfl]
    rfl

theorem inv_step {s s' : State} {a : Action} {c : Option Commit} {o : Cache.Out Nat} (hi : Inv s)
    (hs : step s a = some (s', c, o)) : (∀ p, Published s p → Published s' p ∧ s'.heap p = s.heap p) ∧ Inv s' := by
  have stays : ∀ {t : Nat} {s1 : State} {q : Pc}, s1.pc = s.pc → s1.fresh = s.fresh → s1.heap = s.heap →
      (∀ p, s1.list = some p → s.list = some p ∨ s.pc t = .built p) →
      (∀ p r, q = .building p r → Partly s p r ∧ ∃ r', s.pc t = .building p r') → (∀ p, q ≠ .built p) →
      (∀ p, Published s p → Published (s1.move t q) p ∧ (s1.move t q).heap p = s.heap p) ∧ Inv (s1.move t q) := by
    intro t s1 q h1 h2 h3 h4 h5 h6
    refine keep hi (t := t) (q := q) (by rw [State.move]; simp only [h1]) (by show _ ≤ s1.fresh; omega) (fun p _ _ => ?_) (fun p r hq => ?_)
      (fun p hq => absurd hq (h6 p)) fun p hp => ?_
    · show s1.heap p = _
      rw [h3]
    · obtain ⟨h7, h8⟩ := h5 p r hq
      refine ⟨⟨?_, ?_⟩, .inr h8⟩
      · show p < s1.fresh
        rw [h2]
        exact h7.below
      · show ∃ es done, (s1.heap p).source = _ ∧ _
        rw [show (s1.move t q).heap = s.heap from h3, h3]
        exact h7.part
    · rcases h4 p hp with h7 | h7
      · exact .inl h7
      · have h8 := hi.built t p h7
        refine .inr ⟨?_, fun u r hu => ?_, ?_⟩
        · show p < s1.fresh
          rw [h2]
          exact h8.below
        · have hu : (if u = t then q else s1.pc u) = .building p r := hu
          split at hu
          · obtain ⟨-, r', h9⟩ := h5 p r hu
            rw [h7] at h9
            cases h9
          · rw [h1] at hu
            exact h8.still u r hu
        · show Done (s1.heap p)
          rw [h3]
          exact h8.whole
  cases a with
  | enter t now =>
    unfold step at hs
    dsimp only at hs
    split at hs
    · next hp =>
      split at hs
      · split at hs
        · cases hs
          exact ⟨fun p hp => ⟨hp, rfl⟩, hi⟩
        · cases hs
          exact inv_miss hi t hp
      · cases hs
        exact inv_miss hi t hp
    · cases hs
  | answer t now es =>
    unfold step at hs
    dsimp only at hs
    split at hs
    · next hp =>
      cases es with
      | none =>
        cases hs
        exact stays rfl rfl rfl (fun p h => .inl h) (fun _ _ h => nomatch h) fun _ h => nomatch h
      | some es =>
        cases hs
        have hheap : ∀ q, ((s.alloc ⟨[], some es⟩).move t (.building s.fresh es)).heap q =
          if q = s.fresh then ⟨[], some es⟩ else s.heap q := fun _ => rfl
        refine keep hi (t := t) (q := .building s.fresh es) rfl (Nat.le_succ _) (fun p hlt _ => ?_) (fun p r hq => ?_)
          (fun _ h => (nomatch h)) fun p hpl => .inl hpl
        · rw [hheap, if_neg (by omega)]
        · cases hq
          refine ⟨⟨Nat.lt_succ_self _, ?_⟩, .inl (Nat.le_refl _)⟩
          rw [hheap, if_pos rfl]
          exact ⟨es, [], rfl, rfl, rfl⟩
    · cases hs
  | turn t now =>
    unfold step at hs
    dsimp only at hs
    cases hp : s.pc t with
    | building p rest =>
      rw [hp] at hs
      have hb := hi.building t p rest hp
      cases rest with
      | nil => cases hs
      | cons e rest =>
        obtain ⟨hlt, es, done, h1, h2, h3⟩ := hb
        dsimp only at hs
        cases he : ofEntry e with
        | ub _ => rw [he] at hs; cases hs
        | throw _ =>
          rw [he] at hs
          cases hs
          exact stays rfl rfl rfl (fun p h => .inl h) (fun _ _ h => nomatch h) fun _ h => nomatch h
        | ok i =>
          rw [he] at hs
          have hend := ofEntries_append h3 he
          cases i with
          | none =>
            cases hs
            refine stays rfl rfl rfl (fun p h => .inl h) (fun p' r hq => ?_) fun _ h => nomatch h
            cases hq
            refine ⟨⟨hlt, es, done ++ [e], h1, by rw [h2]; simp, ?_⟩, _, hp⟩
            rw [hend]
            simp
          | some i =>
            cases hs
            have hheap : ∀ q, ((s.push p i).move t (.building p rest)).heap q =
              if q = p then { s.heap q with items := (s.heap q).items ++ [i] } else s.heap q := fun _ => rfl
            refine keep hi (t := t) (q := .building p rest) rfl (Nat.le_refl _) (fun q _ hne => ?_) (fun p' r hq => ?_)
              (fun _ h => (nomatch h)) fun p hpl => .inl hpl
            · rw [hheap, if_neg]
              rintro rfl
              exact hne _ hp
            · cases hq
              refine ⟨⟨hlt, ?_⟩, .inr ⟨_, hp⟩⟩
              rw [hheap, if_pos rfl]
              exact ⟨es, done ++ [e], h1, by rw [h2]; simp, hend⟩
    | _ => rw [hp] at hs; cases hs
  | finish t now =>
    unfold step at hs
    dsimp only at hs
    cases hp : s.pc t with
    | building p rest =>
      rw [hp] at hs
      cases rest with
      | cons e rest => cases hs
      | nil =>
        cases hs
        obtain ⟨hlt, es, done, h1, h2, h3⟩ := hi.building t p [] hp
        refine keep hi (t := t) (q := .built p) rfl (Nat.le_refl _) (fun _ _ _ => rfl) (fun _ _ h => (nomatch h)) (fun p' hq => ?_)
          fun p hpl => .inl hpl
        cases hq
        refine ⟨hlt, fun u r hu => ?_, ?_⟩
        · have hu : (if u = t then .built p else s.pc u) = .building p r := hu
          split at hu
          · cases hu
          · next e => exact hi.apart u t p r p [] hu hp e rfl
        · show Done (s.heap p)
          unfold Done
          rw [h1]
          dsimp only
          rw [h2, List.append_nil]
          exact h3
    | _ => rw [hp] at hs; cases hs
  | store t now =>
    unfold step at hs
    dsimp only at hs
    split at hs
    · next p hp =>
      cases hs
      refine stays (s1 := { s with timeout := now + s.ttl, list := some p }) rfl rfl rfl (fun p h => ?_) (fun _ _ h => nomatch h)
        fun _ h => nomatch h
      cases h
      exact .inr hp
    · cases hs
  | reset now =>
    cases hs
    refine keep hi (t := 0) (q := s.pc 0) (pc_self s 0) (Nat.le_refl _) (fun _ _ _ => rfl) (fun p r hq => ?_) (fun p hq => ?_)
      (fun _ h => nomatch h)
    · exact ⟨⟨(hi.building 0 p r hq).below, (hi.building 0 p r hq).part⟩, .inr ⟨r, hq⟩⟩
    · exact ⟨(hi.built 0 p hq).below, (hi.built 0 p hq).still, (hi.built 0 p hq).whole⟩
  | setTtl now n =>
    cases hs
    refine keep hi (t := 0) (q := s.pc 0) (pc_self s 0) (Nat.le_refl _) (fun _ _ _ => rfl) (fun p r hq => ?_) (fun p hq => ?_)
      (fun _ h => .inl h)
    · exact ⟨⟨(hi.building 0 p r hq).below, (hi.building 0 p r hq).part⟩, .inr ⟨r, hq⟩⟩
    · exact ⟨(hi.built 0 p hq).below, (hi.built 0 p hq).still, (hi.built 0 p hq).whole⟩

theorem inv_exec {h : List Event} {s : State} (hx : Exec h s) : Inv s := by
  induction hx with
  | start => exact ⟨fun _ _ _ h => (nomatch h), fun _ _ _ _ _ _ h => (nomatch h), fun _ _ h => (nomatch h), fun _ h => (nomatch h)⟩
  | next _ hs ih => exact (inv_step ih hs).2

/-- A vector which is returned is one which no thread changes any more. -/
theorem returned_published {s s' : State} {a : Action} {c : Option Commit} {p : Nat} (hi : Inv s)
    (hs : step s a = some (s', c, .returns (some p))) : Published s p ∧ ∃ a', c = some (a', .returns (some (s.heap p).source)) := by
  cases a with
  | enter t now =>
    unfold step at hs
    dsimp only at hs
    split at hs
    · split at hs
      · next p' hl =>
        split at hs
        · cases hs
          exact ⟨hi.list p hl, _, rfl⟩
        · cases hs
      · cases hs
    · cases hs
  | answer t now es =>
    unfold step at hs
    dsimp only at hs
    split at hs
    · cases es <;> cases hs
    · cases hs
  | turn t now =>
    unfold step at hs
    dsimp only at hs
    split at hs
    · split at hs <;> cases hs
    · cases hs
  | finish t now =>
    unfold step at hs
    dsimp only at hs
    split at hs <;> cases hs
  | store t now =>
    unfold step at hs
    dsimp only at hs
    split at hs
    · next p' hp =>
      cases hs
      exact ⟨hi.built t p hp, _, rfl⟩
    · cases hs
  | reset now => cases hs
  | setTtl now n => cases hs

/-! ## The coarse model -/

/-- The transitions of the coarse model which took effect. -/
def commits (h : List Event) : List (Spec.Event (Option (List IfAddrs))) := h.filterMap (·.commit)

/-- Where the thread is in the coarse model. -/
def absPc (s : State) : Pc → Cache.Pc (Option (List IfAddrs))
  | .idle => .idle
  | .fetching | .building _ _ => .fetching
  | .built p => .fetched (s.heap p).source

/-- The state of the coarse model. -/
def abs (s : State) : Cache.State (Option (List IfAddrs)) :=
  { globals := { timeout := s.timeout, list := s.list.map fun p => (s.heap p).source, ttl := s.ttl }, pc := fun t => absPc s (s.pc t) }

/-- The thread `t` moved, the vectors which others know remain. -/
theorem abs_pc {s s' : State} {t : Nat} {q : Pc} (hi : Inv s) (hpc : s'.pc = fun u => if u = t then q else s.pc u)
    (hh : ∀ p, Published s p → s'.heap p = s.heap p) :
    (abs s').pc = fun u => if u = t then absPc s' q else (abs s).pc u := by
  funext u
  show absPc s' (s'.pc u) = if u = t then absPc s' q else absPc s (s.pc u)
  rw [hpc]
  dsimp only
  split
  · rfl
  · cases hu : s.pc u with
    | built p =>
      show Cache.Pc.fetched (s'.heap p).source = .fetched (s.heap p).source
      rw [hh p (hi.built u p hu)]
    | _ => rfl

theorem abs_list {s s' : State} (hi : Inv s) (hl : s'.list = s.list) (hh : ∀ p, Published s p → s'.heap p = s.heap p) :
    (abs s').globals.list = (abs s).globals.list := by
  show s'.list.map _ = s.list.map _
  rw [hl]
  cases h : s.list with
  | none => rfl
  | some p =>
    show some (s'.heap p).source = some (s.heap p).source
    rw [hh p (hi.list p h)]

/-- What a transition does in the coarse model: nothing, or the transition which it commits. -/
def Simulates (s s' : State) : Option Commit → Prop
  | none => abs s' = abs s
  | some (a, o) => Cache.step none (abs s) a = some (abs s', o)

theorem state_ext {β : Type} {x y : Cache.State β} (h1 : x.globals = y.globals) (h2 : x.pc = y.pc) : x = y := by
  cases x
  cases y
  cases h1
  cases h2
  rfl

theorem simulates_step {s s' : State} {a : Action} {c : Option Commit} {o : Cache.Out Nat} (hi : Inv s)
    (hs : step s a = some (s', c, o)) : Simulates s s' c := by
  have hh : ∀ p, Published s p → s'.heap p = s.heap p := fun p hp => ((inv_step hi hs).1 p hp).2
  have missed : ∀ t now, s.pc t = .idle → (s.list = none ∨ s.timeout < now) → s' = miss s t →
      Cache.step none (abs s) (.enter t now) = some (abs s', .nothing) := by
    intro t now hp hc hm
    have hpc := abs_pc hi (s' := s') (t := t) (q := .fetching) (by rw [hm]; rfl) hh
    have hg : abs s' = ({ abs s with globals := { (abs s).globals with list := some none } } : Cache.State _).move t .fetching := by
      refine state_ext ?_ hpc
      subst hm
      show Cache.Globals.mk s.timeout (some (if s.fresh = s.fresh then (⟨[], none⟩ : Cell) else s.heap s.fresh).source) s.ttl = _
      rw [if_pos rfl]
      rfl
    rw [hg]
    unfold Cache.step
    dsimp only
    rw [show (abs s).pc t = .idle from by show absPc s (s.pc t) = _; rw [hp]; rfl]
    dsimp only
    cases hl : s.list with
    | none =>
      rw [show (abs s).globals.list = none from by show s.list.map _ = _; rw [hl]; rfl]
    | some p =>
      rw [show (abs s).globals.list = some (s.heap p).source from by show s.list.map _ = _; rw [hl]; rfl]
      dsimp only
      rw [if_neg]
      show ¬ s.timeout ≥ now
      rcases hc with hc | hc
      · rw [hl] at hc
        cases hc
      · omega
  have same : ∀ (t : Nat) (q : Pc), s'.pc = (fun u => if u = t then q else s.pc u) → s'.timeout = s.timeout → s'.list = s.list →
      s'.ttl = s.ttl → abs s' = (abs s).move t (absPc s' q) := by
    intro t q h1 h2 h3 h4
    refine state_ext ?_ (abs_pc hi h1 hh)
    have := abs_list hi h3 hh
    show Cache.Globals.mk s'.timeout (s'.list.map _) s'.ttl = Cache.Globals.mk s.timeout (s.list.map _) s.ttl
    rw [h2, h4]
    congr 1
  have stay : ∀ (t : Nat) (q : Pc), s'.pc = (fun u => if u = t then q else s.pc u) → s'.timeout = s.timeout → s'.list = s.list →
      s'.ttl = s.ttl → absPc s' q = absPc s (s.pc t) → abs s' = abs s := by
    intro t q h1 h2 h3 h4 h5
    rw [same t q h1 h2 h3 h4, h5]
    refine state_ext rfl ?_
    funext u
    show (if u = t then _ else absPc s (s.pc u)) = absPc s (s.pc u)
    split
    · next e => rw [e]
    · rfl
  cases a with
  | enter t now =>
    unfold step at hs
    dsimp only at hs
    split at hs
    · next hp =>
      split at hs
      · next p hl =>
        split at hs
        · next ht =>
          cases hs
          show Cache.step none (abs s) (.enter t now) = _
          unfold Cache.step
          dsimp only
          rw [show (abs s).pc t = .idle from by show absPc s (s.pc t) = _; rw [hp]; rfl]
          dsimp only
          rw [show (abs s).globals.list = some (s.heap p).source from by show s.list.map _ = _; rw [hl]; rfl]
          dsimp only
          rw [if_pos (show (abs s).globals.timeout ≥ now from ht)]
        · next ht =>
          cases hs
          exact missed t now hp (.inr (by omega)) rfl
      · next hl =>
        cases hs
        exact missed t now hp (.inl hl) rfl
    · cases hs
  | answer t now es =>
    unfold step at hs
    dsimp only at hs
    split at hs
    · next hp =>
      cases es with
      | none =>
        cases hs
        show Cache.step none (abs s) _ = some (abs _, _)
        rw [same t .idle rfl rfl rfl rfl]
        unfold Cache.step
        dsimp only
        rw [show (abs s).pc t = .fetching from by show absPc s (s.pc t) = _; rw [hp]; rfl]
        rfl
      | some es =>
        cases hs
        exact stay t _ rfl rfl rfl rfl (by rw [hp]; rfl)
    · cases hs
  | turn t now =>
    unfold step at hs
    dsimp only at hs
    cases hp : s.pc t with
    | building p rest =>
      rw [hp] at hs
      cases rest with
      | nil => cases hs
      | cons e rest =>
        dsimp only at hs
        cases he : ofEntry e with
        | ub _ => rw [he] at hs; cases hs
        | throw _ =>
          rw [he] at hs
          cases hs
          show Cache.step none (abs s) _ = some (abs _, _)
          rw [same t .idle rfl rfl rfl rfl]
          unfold Cache.step
          dsimp only
          rw [show (abs s).pc t = .fetching from by show absPc s (s.pc t) = _; rw [hp]; rfl]
          rfl
        | ok i =>
          rw [he] at hs
          cases i <;> cases hs <;> exact stay t _ rfl rfl rfl rfl (by rw [hp]; rfl)
    | _ => rw [hp] at hs; cases hs
  | finish t now =>
    unfold step at hs
    dsimp only at hs
    cases hp : s.pc t with
    | building p rest =>
      rw [hp] at hs
      cases rest with
      | cons e rest => cases hs
      | nil =>
        cases hs
        show Cache.step none (abs s) _ = some (abs _, _)
        rw [same t (.built p) rfl rfl rfl rfl]
        unfold Cache.step
        dsimp only
        rw [show (abs s).pc t = .fetching from by show absPc s (s.pc t) = _; rw [hp]; rfl]
        rfl
    | _ => rw [hp] at hs; cases hs
  | store t now =>
    unfold step at hs
    dsimp only at hs
    split at hs
    · next p hp =>
      cases hs
      have hpc := abs_pc hi (s' := ({ s with timeout := now + s.ttl, list := some p } : State).move t .idle) (t := t) (q := .idle) rfl hh
      have hg : abs (({ s with timeout := now + s.ttl, list := some p } : State).move t .idle) =
          ({ abs s with globals := { (abs s).globals with timeout := now + s.ttl, list := some (s.heap p).source } } :
            Cache.State _).move t .idle := state_ext rfl hpc
      show Cache.step none (abs s) _ = some (abs _, _)
      rw [hg]
      unfold Cache.step
      dsimp only
      rw [show (abs s).pc t = .fetched (s.heap p).source from by show absPc s (s.pc t) = _; rw [hp]; rfl]
      rfl
    · cases hs
  | reset now =>
    cases hs
    rfl
  | setTtl now n =>
    cases hs
    rfl

theorem commits_exec {h : List Event} {s : State} (hx : Exec h s) : Cache.Exec none (commits h) (abs s) := by
  induction hx with
  | start => exact .start
  | @next h s s' a c o hx hs ih =>
    have hsim := simulates_step (inv_exec hx) hs
    cases c with
    | none =>
      rw [show commits (⟨a, none, o⟩ :: h) = commits h from rfl, show abs s' = abs s from hsim]
      exact ih
    | some x =>
      obtain ⟨b, o'⟩ := x
      exact .next ih hsim

/-- The vectors which threads build are made of answers of the system. -/
theorem building_answered {h : List Event} {s : State} (hx : Exec h s) :
    ∀ p es, p < s.fresh → (s.heap p).source = some es → ∃ e ∈ h, ∃ t f, e.action = .answer t f (some es) := by
  induction hx with
  | start => exact fun _ _ h => absurd h (Nat.not_lt_zero _)
  | @next h s s' a c o hx hs ih =>
    have keep' : (s'.fresh = s.fresh ∧ ∀ p, (s'.heap p).source = (s.heap p).source) →
        ∀ p es, p < s'.fresh → (s'.heap p).source = some es → ∃ e ∈ (⟨a, c, o⟩ :: h : List Event), ∃ t f, e.action = .answer t f (some es) := by
      rintro ⟨h1, h2⟩ p es hp hsrc
      rw [h1] at hp
      rw [h2] at hsrc
      obtain ⟨e, he, h3⟩ := ih p es hp hsrc
      exact ⟨e, List.mem_cons_of_mem _ he, h3⟩
    have missed : ∀ t, s' = miss s t → ∀ p es, p < s'.fresh → (s'.heap p).source = some es →
        ∃ e ∈ (⟨a, c, o⟩ :: h : List Event), ∃ t f, e.action = .answer t f (some es) := by
      rintro t rfl p es hp hsrc
      have hp : p < s.fresh + 1 := hp
      have hsrc : (if p = s.fresh then (⟨[], none⟩ : Cell) else s.heap p).source = some es := hsrc
      split at hsrc
      · cases hsrc
      · obtain ⟨e, he, h3⟩ := ih p es (by omega) hsrc
        exact ⟨e, List.mem_cons_of_mem _ he, h3⟩
    cases a with
    | enter t now =>
      unfold step at hs
      dsimp only at hs
      split at hs
      · split at hs
        · split at hs
          · cases hs
            exact keep' ⟨rfl, fun _ => rfl⟩
          · cases hs
            exact missed t rfl
        · cases hs
          exact missed t rfl
      · cases hs
    | answer t now es' =>
      unfold step at hs
      dsimp only at hs
      split at hs
      · cases es' with
        | none =>
          cases hs
          exact keep' ⟨rfl, fun _ => rfl⟩
        | some es' =>
          cases hs
          intro p es hp hsrc
          have hp : p < s.fresh + 1 := hp
          have hsrc : (if p = s.fresh then (⟨[], some es'⟩ : Cell) else s.heap p).source = some es := hsrc
          split at hsrc
          · cases hsrc
            exact ⟨_, List.mem_cons_self, t, now, rfl⟩
          · obtain ⟨e, he, h3⟩ := ih p es (by omega) hsrc
            exact ⟨e, List.mem_cons_of_mem _ he, h3⟩
      · cases hs
    | turn t now =>
      unfold step at hs
      dsimp only at hs
      split at hs
      · split at hs
        · cases hs
          refine keep' ⟨rfl, fun p => ?_⟩
          show (if p = _ then ({ s.heap p with items := _ } : Cell) else s.heap p).source = _
          split <;> rfl
        · cases hs
          exact keep' ⟨rfl, fun _ => rfl⟩
        · cases hs
          exact keep' ⟨rfl, fun _ => rfl⟩
        · cases hs
      · cases hs
    | finish t now =>
      unfold step at hs
      dsimp only at hs
      split at hs <;> cases hs
      exact keep' ⟨rfl, fun _ => rfl⟩
    | store t now =>
      unfold step at hs
      dsimp only at hs
      split at hs <;> cases hs
      exact keep' ⟨rfl, fun _ => rfl⟩
    | reset now =>
      cases hs
      exact keep' ⟨rfl, fun _ => rfl⟩
    | setTtl now n =>
      cases hs
      exact keep' ⟨rfl, fun _ => rfl⟩

theorem exec_published {h2 h1 : List Event} {s' : State} {p : Nat} (hx : Exec (h2 ++ h1) s') {s : State} (hx1 : Exec h1 s)
    (hp : ∀ s, Exec h1 s → Published s p) : ∃ s, Exec h1 s ∧ Published s' p ∧ s'.heap p = s.heap p := by
  induction h2 generalizing s' with
  | nil => exact ⟨s', hx, hp s' hx, rfl⟩
  | cons e h2 ih =>
    cases hx with
    | next hx hs =>
      obtain ⟨s0, h0, h1, h2⟩ := ih hx
      obtain ⟨h3, h4⟩ := (inv_step (inv_exec hx) hs).1 p h1
      exact ⟨s0, h0, h3, h4.trans h2⟩

theorem exec_unique {h : List Event} {s s' : State} (h1 : Exec h s) (h2 : Exec h s') : s = s' := by
  induction h1 generalizing s' with
  | start => cases h2; rfl
  | next hx hs ih =>
    cases h2 with
    | next hx' hs' =>
      cases ih hx'
      rw [hs] at hs'
      cases hs'
      rfl

end Heap

open Heap

/-- The interfaces in the vector `p`. -/
def Heap.State.interfaces (s : Heap.State) (p : Nat) : List Iface := (s.heap p).items

/-- **C109**: the library never changes a vector which it returned: whatever the threads do afterwards, its callers find the same
interfaces in it. -/
theorem C109_unchanged {h h' : List Heap.Event} {e : Heap.Event} {s s' : Heap.State} {p : Nat} (hx : Heap.Exec (e :: h) s)
    (he : e.out = .returns (some p)) (hx' : Heap.Exec (h' ++ e :: h) s') : s'.interfaces p = s.interfaces p := by
  have hp : ∀ s, Heap.Exec (e :: h) s → Published s p := by
    intro s hx
    cases hx with
    | @next _ s1 _ a c o hx1 hs =>
      cases he
      exact ((Heap.inv_step (Heap.inv_exec hx1) hs).1 p (returned_published (Heap.inv_exec hx1) hs).1).1
  obtain ⟨s0, h0, -, h1⟩ := exec_published hx' hx hp
  rw [exec_unique hx h0]
  exact congrArg Cell.items h1

/-- **C109**: a vector which is returned holds the whole list of an answer of the system, or it is the empty vector which the
cache holds while the system is asked. It is never a list which is still being built. -/
theorem C109_whole {h : List Heap.Event} {e : Heap.Event} {s : Heap.State} {p : Nat} (hx : Heap.Exec (e :: h) s)
    (he : e.out = .returns (some p)) :
    (∃ es, (∃ x ∈ h, ∃ t f, x.action = .answer t f (some es)) ∧ ofEntries es = .ok (s.interfaces p)) ∨ s.interfaces p = [] := by
  cases hx with
  | @next _ s1 _ a c o hx hs =>
    cases he
    have hp := (returned_published (Heap.inv_exec hx) hs).1
    obtain ⟨-, h1⟩ := (Heap.inv_step (Heap.inv_exec hx) hs).1 p hp
    have hw := hp.whole
    unfold Done at hw
    unfold Heap.State.interfaces
    rw [h1]
    cases hsrc : (s1.heap p).source with
    | none =>
      rw [hsrc] at hw
      exact .inr hw
    | some es =>
      rw [hsrc] at hw
      exact .inl ⟨es, building_answered hx p es hp.below hsrc, hw⟩

/-- When a transition happened. -/
def Heap.timeOf : Heap.Event → Int
  | ⟨.enter _ now, _, _⟩ => now
  | ⟨.answer _ now _, _, _⟩ => now
  | ⟨.turn _ now, _, _⟩ => now
  | ⟨.finish _ now, _, _⟩ => now
  | ⟨.store _ now, _, _⟩ => now
  | ⟨.reset now, _, _⟩ => now
  | ⟨.setTtl now _, _, _⟩ => now

/-- The clock never goes back and is after 1970-01-01 00:00:00. -/
def Heap.Clock (h : List Heap.Event) : Prop :=
  h.Pairwise (fun later earlier => Heap.timeOf earlier ≤ Heap.timeOf later) ∧ ∀ e ∈ h, 0 < Heap.timeOf e

instance (h : List Heap.Event) : Decidable (Heap.Clock h) := inferInstanceAs (Decidable (_ ∧ _))

/-- The time of a transition of the coarse model is the one of the transition which makes it. -/
theorem commit_time {h : List Heap.Event} {s : Heap.State} (hx : Heap.Exec h s) :
    ∀ e ∈ h, ∀ x, e.commit = some x → Spec.timeOf x = Heap.timeOf e := by
  induction hx with
  | start => exact fun _ h => nomatch h
  | @next h s s' a c o hx hs ih =>
    intro e he x hc
    rcases List.mem_cons.1 he with rfl | he
    · have hc : c = some x := hc
      cases a with
      | enter t now =>
        unfold Heap.step at hs
        dsimp only at hs
        split at hs
        · split at hs
          · split at hs <;> cases hs <;> cases hc <;> rfl
          · cases hs; cases hc; rfl
        · cases hs
      | answer t now es =>
        unfold Heap.step at hs
        dsimp only at hs
        split at hs
        · cases es <;> cases hs <;> cases hc
          rfl
        · cases hs
      | turn t now =>
        unfold Heap.step at hs
        dsimp only at hs
        split at hs
        · split at hs <;> cases hs <;> cases hc
          rfl
        · cases hs
      | finish t now =>
        unfold Heap.step at hs
        dsimp only at hs
        split at hs <;> cases hs
        cases hc
        rfl
      | store t now =>
        unfold Heap.step at hs
        dsimp only at hs
        split at hs <;> cases hs
        cases hc
        rfl
      | reset now => cases hs; cases hc; rfl
      | setTtl now n => cases hs; cases hc; rfl
    · exact ih e he x hc

theorem commits_clock {h : List Heap.Event} {s : Heap.State} (hx : Heap.Exec h s) (hc : Heap.Clock h) :
    Spec.Clock (Heap.commits h) := by
  have ht := commit_time hx
  clear hx
  obtain ⟨h1, h2⟩ := hc
  refine ⟨?_, fun x hx => ?_⟩
  · refine List.Pairwise.filterMap _ (R := fun a b => a ∈ h ∧ b ∈ h ∧ Heap.timeOf b ≤ Heap.timeOf a) ?_ ?_
    · intro a b ⟨ha, hb, hab⟩ x hx y hy
      rw [ht a ha x hx, ht b hb y hy]
      exact hab
    · exact List.Pairwise.imp_of_mem (fun ha hb hab => ⟨ha, hb, hab⟩) h1
  · obtain ⟨e, he, hc⟩ := List.mem_filterMap.1 hx
    rw [ht e he x hc]
    exact h2 e he

/-- **C109**: as long as the clock does not go back, the vector which a call returns holds, whenever its caller looks at it, one
interface for each entry with an IPv4 or IPv6 address of an answer which the system gave before, in the order of the system. -/
theorem C109_interfaces {h h' : List Heap.Event} {e : Heap.Event} {s' : Heap.State} {p : Nat} (hx : Heap.Exec (h' ++ e :: h) s')
    (he : e.out = .returns (some p)) (hc : Heap.Clock (e :: h))
    (hf : ∀ x ∈ h, ∀ t f es, x.action = .answer t f (some es) → ∀ i ∈ es, EntryFamily i) :
    ∃ es, (∃ x ∈ h, ∃ t f, x.action = .answer t f (some es)) ∧
      List.Forall₂ Describes (es.filter HasIp) (s'.interfaces p) := by
  obtain ⟨s, hs⟩ : ∃ s, Heap.Exec (e :: h) s := by
    clear he hc hf
    induction h' generalizing s' with
    | nil => exact ⟨s', hx⟩
    | cons x h' ih =>
      cases hx with
      | next hx _ => exact ih hx
  rw [C109_unchanged hs he hx]
  have hat := commits_exec hs
  have hck := commits_clock hs hc
  cases hs with
  | @next _ s1 _ a c o hx1 hs1 =>
    cases he
    obtain ⟨hp, a', hca⟩ := returned_published (Heap.inv_exec hx1) hs1
    obtain ⟨-, hsame⟩ := (Heap.inv_step (Heap.inv_exec hx1) hs1).1 p hp
    subst hca
    have hne : ∃ es, (s1.heap p).source = some es := by
      have hcm : Heap.commits (⟨a, some (a', .returns (some (s1.heap p).source)), .returns (some p)⟩ :: h) =
        (a', .returns (some (s1.heap p).source)) :: Heap.commits h := rfl
      rw [hcm] at hat hck
      have holds : ∀ (h0 : List (Spec.Event (Option (List IfAddrs)))) (t' : Nat) (f : Int) (x : Option (List IfAddrs)),
          HoldsList h0 t' x f → (∀ y ∈ h0, y ∈ Heap.commits h) → ∃ es, x = some es := by
        rintro h0 t' f x ⟨g1, g2, rfl, -⟩ hsub
        have hm := hsub (.fetch t' f (.list x), .nothing) (by simp)
        obtain ⟨y, hy, hyc⟩ := List.mem_filterMap.1 hm
        -- the commit of a fetch is the one of the end of a loop
        obtain ⟨k, sk, hk⟩ : ∃ k sk, Heap.Exec (y :: k) sk := by
          obtain ⟨k1, k2, rfl⟩ := List.append_of_mem hy
          clear hat hck hsub hm hsame hp hs1 hc hf hx hcm
          induction k1 generalizing s1 with
          | nil => exact ⟨k2, s1, hx1⟩
          | cons z k1 ih =>
            cases hx1 with
            | next hx1 _ => exact ih hx1 (by simp)
        cases hk with
        | @next _ sk1 _ b cy oy hxk hsk =>
          have hyc : cy = _ := hyc
          subst hyc
          cases b with
          | enter t now =>
            unfold Heap.step at hsk
            dsimp only at hsk
            split at hsk
            · split at hsk
              · split at hsk <;> cases hsk
              · cases hsk
            · cases hsk
          | answer t now es =>
            unfold Heap.step at hsk
            dsimp only at hsk
            split at hsk
            · cases es <;> cases hsk
            · cases hsk
          | turn t now =>
            unfold Heap.step at hsk
            dsimp only at hsk
            split at hsk
            · split at hsk <;> cases hsk
            · cases hsk
          | finish t now =>
            unfold Heap.step at hsk
            dsimp only at hsk
            split at hsk
            · next p' hp' =>
              obtain ⟨es, -, h1, -⟩ := ((Heap.inv_exec hxk).building t p' [] hp').part
              simp only [Option.some.injEq, Prod.mk.injEq, Cache.Action.fetch.injEq, Cache.Answer.list.injEq] at hsk
              exact ⟨es, hsk.2.1.1.2.2.symm.trans h1⟩
            · cases hsk
          | store t now =>
            unfold Heap.step at hsk
            dsimp only at hsk
            split at hsk <;> cases hsk
          | reset now => cases hsk
          | setTtl now n => cases hsk
      cases a' with
      | enter t n =>
        obtain ⟨t', f, s0, ttl, ⟨g1, g2, hg, -, hh, -⟩, -⟩ := exec_hit hat hck
        refine holds g2 t' f _ hh fun y hy => ?_
        rw [hg]
        exact List.mem_append_right _ (List.mem_cons_of_mem _ hy)
      | store t n =>
        obtain ⟨l', f, h3, hh⟩ := exec_store hat
        cases h3
        exact holds _ t f _ hh fun y hy => hy
      | fetch t n ans =>
        generalize Heap.abs s = z at hat
        cases hat with
        | next _ hst =>
          rw [Cache.step.eq_def] at hst
          dsimp only at hst
          split at hst
          · cases ans <;> cases hst
          · cases hst
      | reset n =>
        generalize Heap.abs s = z at hat
        cases hat with
        | next _ hst => cases hst
      | setTtl n d =>
        generalize Heap.abs s = z at hat
        cases hat with
        | next _ hst => cases hst
    obtain ⟨es, hsrc⟩ := hne
    have hans := building_answered hx1 p es hp.below hsrc
    refine ⟨es, hans, ?_⟩
    obtain ⟨x, hxm, t, f, hxa⟩ := hans
    obtain ⟨l, hl, hd⟩ := C63_list es (hf x hxm t f es hxa)
    have hw := hp.whole
    unfold Done at hw
    rw [hsrc] at hw
    dsimp only at hw
    rw [hl] at hw
    unfold Heap.State.interfaces
    rw [hsame, ← Res.ok.inj hw]
    exact hd

/-- **C109**, on the other side: two callers get the same vector, and not a copy of it. -/
theorem C109_shared {s s' : Heap.State} {t now p : _} {c : Option Commit} (hs : Heap.step s (.store t now) = some (s', c, .returns (some p)))
    {u : Nat} {r : Int} (hu : s'.pc u = .idle) (hr : r ≤ now + s.ttl) :
    ∃ c', Heap.step s' (.enter u r) = some (s', c', .returns (some p)) := by
  unfold Heap.step at hs
  dsimp only at hs
  split at hs
  · cases hs
    refine ⟨some (.enter u r, .returns (some (s.heap p).source)), ?_⟩
    unfold Heap.step
    dsimp only
    rw [hu]
    exact if_pos hr
  · cases hs

/-- The transitions, one after the other. -/
def Heap.run : List Heap.Action → List Heap.Event × Heap.State → Option (List Heap.Event × Heap.State)
  | [], x => some x
  | a :: as, (h, s) =>
    match Heap.step s a with
    | some (s', c, o) => Heap.run as (⟨a, c, o⟩ :: h, s')
    | none => none

theorem heap_run_exec {as : List Heap.Action} {h h' : List Heap.Event} {s s' : Heap.State} (hx : Heap.Exec h s)
    (hr : Heap.run as (h, s) = some (h', s')) : Heap.Exec h' s' := by
  induction as generalizing h s with
  | nil =>
    cases hr
    exact hx
  | cons a as ih =>
    rw [Heap.run] at hr
    cases hs : Heap.step s a with
    | none => rw [hs] at hr; cases hr
    | some x =>
      obtain ⟨s1, c, o⟩ := x
      rw [hs] at hr
      exact ih (hx.next hs) hr

/-- A thread asks the system and builds the list of two interfaces; a second one, which came meanwhile, has an answer with none; a third
one finds the first list in the cache, which is then reset. -/
def sharedRun : List Heap.Action :=
  [.enter 1 5, .answer 1 5 (some sampleEntries), .turn 1 5, .reset 5, .enter 2 5, .answer 2 6 (some []), .turn 1 6, .turn 1 6, .finish 1 6,
   .store 1 6, .enter 3 7, .reset 8, .finish 2 8]

/-- What the third thread gets, and finds in it after the reset. -/
example : (Heap.run (sharedRun.take 11) ([], Heap.init)).any (fun x => decide (Heap.Clock x.1) &&
      match x.1 with | ⟨_, _, .returns (some 1)⟩ :: _ => true | _ => false) = true ∧
    (Heap.run sharedRun ([], Heap.init)).any (fun x => (x.2.interfaces 1).length == 2) = true := by
  decide +kernel

end Verif
