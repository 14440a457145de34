import Verif.Model.AddrShared
import Verif.Props.AddrNet

/-!
# C138: an address which several threads share
-/

namespace Verif

open Spec

namespace Shared

/-- A data race on `f_private_network`: two threads are about to access it, one of them to write it. -/
def Race (a : Addr) (s : State) : Prop :=
  ∃ t u w w', t ≠ u ∧ access a (s.pc t) = some w ∧ access a (s.pc u) = some w' ∧ (w = true ∨ w' = true)

/-- The reply is the one which the caller would have got without the other threads. All questions about a copy have to be
answered as they are about the object. -/
def Right (a : Addr) (e : Event) : Prop :=
  match e.question with
  | .copy => ∃ c, e.reply = .copy c ∧ (∃ t, c = { a with privateNetwork := t }) ∧
      ∀ q : Question, q ≠ .copy → q.answer c = q.answer a
  | q => e.reply = q.answer a

/-- The type of the address. -/
def typed (a : Addr) : NetType := typeOf (ip a.getIpv6.addr)

theorem classify_typed (a : Addr) : Addr.classify a.bytes a.isIpv4 = typed a :=
  (classify_eq a).trans (classifyNat_eq_typeOf _)

theorem typed_ne (a : Addr) : typed a ≠ .undefined := by
  unfold typed
  rw [← classifyNat_eq_typeOf]
  exact classifyNat_ne_undefined _

/-- The answers depend on the type only. -/
theorem answer_of_type {a b : Addr} (h : b.getNetworkType.2 = a.getNetworkType.2) {q : Question} (hq : q ≠ .copy) :
    q.answer b = q.answer a := by
  cases q with
  | copy => exact absurd rfl hq
  | _ =>
    simp only [Question.answer, Addr.getNetworkTypeString, Addr.isValid, Addr.isLan, Addr.isWan, h]

theorem type_with {a : Addr} {t : NetType} (ht : t = .undefined ∨ t = typed a) :
    ({ a with privateNetwork := t } : Addr).getNetworkType.2 = typed a :=
  getNetworkType_fresh { a with privateNetwork := t } ht

theorem right_of {a : Addr} (hf : Fresh a) {t : Nat} {q : Question} {v : NetType} (hv : v = typed a ∨ q = .copy ∧ v = .undefined) :
    Right a ⟨t, q, q.answer { a with privateNetwork := v }⟩ := by
  have hv' : v = .undefined ∨ v = typed a := hv.symm.imp_left And.right
  have hty : ({ a with privateNetwork := v } : Addr).getNetworkType.2 = a.getNetworkType.2 :=
    (type_with hv').trans (getNetworkType_fresh a hf).symm
  cases q with
  | copy => exact ⟨_, rfl, ⟨v, rfl⟩, fun q hq => answer_of_type hty hq⟩
  | type => exact answer_of_type (q := .type) hty (fun h => nomatch h)
  | text => exact answer_of_type (q := .text) hty (fun h => nomatch h)
  | valid => exact answer_of_type (q := .valid) hty (fun h => nomatch h)
  | lan b => exact answer_of_type (q := .lan b) hty (fun h => nomatch h)
  | wan b => exact answer_of_type (q := .wan b) hty (fun h => nomatch h)

/-! ## The transitions -/

theorem pc_move (s : State) (t u : Nat) (p : Pc) : (s.move t p).pc u = if u = t then p else s.pc u := rfl

/-- What a thread is about to do, what it did and the event of it. -/
inductive Moves (a : Addr) (s : State) (t : Nat) : NetType → Pc → Option Event → Prop
  | copy : s.pc t = .idle → Moves a s t s.cache (.read .copy) none
  | call (q : Question) : q ≠ .copy → s.pc t = .idle → Moves a s t s.cache (.test q) none
  | unset (q : Question) : s.pc t = .test q → s.cache = .undefined → Moves a s t s.cache (.mark q) none
  | set (q : Question) : s.pc t = .test q → s.cache ≠ .undefined → Moves a s t s.cache (.read q) none
  | mark (q : Question) : s.pc t = .mark q → Moves a s t .unknown (.store q) none
  | keep (q : Question) : s.pc t = .store q → typed a = .unknown → Moves a s t s.cache (.read q) none
  | store (q : Question) : s.pc t = .store q → typed a ≠ .unknown → Moves a s t (typed a) (.read q) none
  | read (q : Question) : s.pc t = .read q → Moves a s t s.cache (.leaving q s.cache) none
  | leave (q : Question) (v : NetType) : s.pc t = .leaving q v →
      Moves a s t s.cache .idle (some ⟨t, q, q.answer { a with privateNetwork := v }⟩)

theorem step_moves {a : Addr} {s s' : State} {x : Action} {e : Option Event} (h : step a s x = some (s', e)) :
    ∃ c p, Moves a s x.thread c p e ∧ s' = { s with cache := c }.move x.thread p := by
  cases x with
  | call t q =>
    unfold step at h
    dsimp only at h
    split at h
    · next hp =>
      have other : ∀ q : Question, q ≠ .copy → some (s.move t (.test q), (none : Option Event)) = some (s', e) →
          ∃ c p, Moves a s t c p e ∧ s' = { s with cache := c }.move t p := by
        intro q hq h
        cases h
        exact ⟨_, _, .call q hq hp, rfl⟩
      cases q with
      | copy =>
        cases h
        exact ⟨_, _, .copy hp, rfl⟩
      | type => exact other .type (fun h => nomatch h) h
      | text => exact other .text (fun h => nomatch h) h
      | valid => exact other .valid (fun h => nomatch h) h
      | lan b => exact other (.lan b) (fun h => nomatch h) h
      | wan b => exact other (.wan b) (fun h => nomatch h) h
    · cases h
  | step t =>
    unfold step at h
    cases hp : s.pc t with
    | idle => simp only [hp] at h; cases h
    | test q =>
      simp only [hp, Option.some.injEq, Prod.mk.injEq] at h
      obtain ⟨h1, rfl⟩ := h
      by_cases hc : s.cache = .undefined
      · rw [if_pos hc] at h1
        exact ⟨_, _, .unset q hp hc, h1.symm⟩
      · rw [if_neg hc] at h1
        exact ⟨_, _, .set q hp hc, h1.symm⟩
    | mark q =>
      simp only [hp] at h
      cases h
      exact ⟨_, _, .mark q hp, rfl⟩
    | store q =>
      simp only [hp, classify_typed, Option.some.injEq, Prod.mk.injEq] at h
      obtain ⟨h1, rfl⟩ := h
      by_cases hc : typed a = .unknown
      · rw [if_pos hc] at h1
        exact ⟨_, _, .keep q hp hc, h1.symm⟩
      · rw [if_neg hc] at h1
        exact ⟨_, _, .store q hp hc, h1.symm⟩
    | read q =>
      simp only [hp] at h
      cases h
      exact ⟨_, _, .read q hp, rfl⟩
    | leaving q v =>
      simp only [hp] at h
      cases h
      exact ⟨_, _, .leave q v hp, rfl⟩

/-! ## The invariants -/

/-- What a thread knows, whatever the others do. -/
def Knows (a : Addr) (s : State) : Pc → Prop
  | .idle => True
  | .test q => q ≠ .copy
  | .mark q => q ≠ .copy
  | .store q => q ≠ .copy ∧ s.cache ≠ .undefined
  | .read q => q = .copy ∨ s.cache ≠ .undefined
  | .leaving q v => v = typed a ∨ v = .unknown ∨ q = .copy ∧ v = .undefined

structure Inv (a : Addr) (h : List Event) (s : State) : Prop where
  cache : s.cache = .undefined ∨ s.cache = typed a ∨ s.cache = .unknown
  knows : ∀ t, Knows a s (s.pc t)
  writing : s.cache = .undefined ∨ s.cache = typed a ∨ ∃ t q, s.pc t = .store q
  replies : ∀ e ∈ h, Right a e ∨ e.reply = e.question.answer { a with privateNetwork := .unknown }

theorem inv_exec {a : Addr} (hf : Fresh a) {h : List Event} {s : State} (hx : Exec a h s) : Inv a h s := by
  induction hx with
  | start =>
    have hc : (init a).cache = .undefined ∨ (init a).cache = typed a := hf
    exact ⟨hc.imp_right .inl, fun _ => trivial, hc.imp_right .inl, fun e he => nomatch he⟩
  | @next h s s' x e hx hs ih =>
    obtain ⟨c, p, hm, rfl⟩ := step_moves hs
    generalize x.thread = t at hm
    -- the threads keep what they know
    have hk : (s.cache ≠ .undefined → c ≠ .undefined) → Knows a { s with cache := c } p →
        ∀ u, Knows a ({ s with cache := c }.move t p) (({ s with cache := c }.move t p).pc u) := by
      intro hc hp u
      rw [pc_move]
      by_cases hu : u = t
      · rw [if_pos hu]
        revert hp
        cases p <;> exact id
      · rw [if_neg hu]
        have := ih.knows u
        show Knows a ({ s with cache := c }.move t p) (s.pc u)
        revert this
        cases s.pc u with
        | store q => exact fun h => ⟨h.1, hc h.2⟩
        | read q => exact fun h => h.imp_right hc
        | _ => exact id
    -- a thread other than `t` which writes still does
    have hw : (∀ q, s.pc t ≠ .store q) → c = s.cache →
        c = .undefined ∨ c = typed a ∨ ∃ u q, ({ s with cache := c }.move t p).pc u = .store q := by
      intro hn hc
      rcases ih.writing with h1 | h1 | ⟨u, q, h1⟩
      · exact .inl (hc.trans h1)
      · exact .inr (.inl (hc.trans h1))
      · refine .inr (.inr ⟨u, q, ?_⟩)
        rw [pc_move, if_neg fun hu : u = t => hn q (hu ▸ h1)]
        exact h1
    cases hm with
    | copy hp =>
      exact ⟨ih.cache, hk id (.inl rfl), hw (fun q h => by rw [hp] at h; cases h) rfl, ih.replies⟩
    | call q hq hp =>
      exact ⟨ih.cache, hk id hq, hw (fun q h => by rw [hp] at h; cases h) rfl, ih.replies⟩
    | unset q hp hc =>
      have := ih.knows t
      rw [hp] at this
      exact ⟨ih.cache, hk id this, hw (fun q h => by rw [hp] at h; cases h) rfl, ih.replies⟩
    | set q hp hc =>
      exact ⟨ih.cache, hk id (.inr hc), hw (fun q h => by rw [hp] at h; cases h) rfl, ih.replies⟩
    | mark q hp =>
      have := ih.knows t
      rw [hp] at this
      refine ⟨.inr (.inr rfl), hk (fun _ h => nomatch h) ⟨this, fun h => nomatch h⟩, .inr (.inr ⟨t, q, ?_⟩), ih.replies⟩
      rw [pc_move, if_pos rfl]
    | keep q hp hc =>
      have := ih.knows t
      rw [hp] at this
      refine ⟨ih.cache, hk id (.inr this.2), .inr (.inl ?_), ih.replies⟩
      rcases ih.cache with h1 | h1 | h1
      · exact absurd h1 this.2
      · exact h1
      · exact h1.trans hc.symm
    | store q hp hc =>
      exact ⟨.inr (.inl rfl), hk (fun _ => typed_ne a) (.inr (typed_ne a)), .inr (.inl rfl), ih.replies⟩
    | read q hp =>
      have := ih.knows t
      rw [hp] at this
      refine ⟨ih.cache, hk id ?_, hw (fun q h => by rw [hp] at h; cases h) rfl, ih.replies⟩
      rcases ih.cache with h1 | h1 | h1
      · exact .inr (.inr ⟨this.resolve_right fun h => h h1, h1⟩)
      · exact .inl h1
      · exact .inr (.inl h1)
    | leave q v hp =>
      have := ih.knows t
      rw [hp] at this
      refine ⟨ih.cache, hk id trivial, hw (fun q h => by rw [hp] at h; cases h) rfl, fun e he => ?_⟩
      rcases List.mem_cons.1 he with rfl | he
      · rcases this with h1 | h1 | h1
        · exact .inl (right_of hf (.inl h1))
        · subst h1
          exact .inr rfl
        · exact .inl (right_of hf (.inr h1))
      · exact ih.replies e he

/-- The transitions, one after the other. -/
def run (a : Addr) : List Action → List Event × State → Option (List Event × State)
  | [], x => some x
  | x :: xs, (h, s) =>
    match step a s x with
    | some (s', e) => run a xs (e.toList ++ h, s')
    | none => none

theorem run_exec {a : Addr} {xs : List Action} {h h' : List Event} {s s' : State} (hx : Exec a h s)
    (hr : run a xs (h, s) = some (h', s')) : Exec a h' s' := by
  induction xs generalizing h s with
  | nil =>
    cases hr
    exact hx
  | cons x xs ih =>
    rw [run] at hr
    cases hs : step a s x with
    | none => rw [hs] at hr; cases hr
    | some y =>
      rw [hs] at hr
      exact ih (hx.next hs) hr

/-- The executions where a function is called only when no thread is within one. -/
inductive Turns (a : Addr) : List Event → State → Prop
  | start : Turns a [] (init a)
  | call {h : List Event} {s s' : State} {t : Nat} {q : Question} {e : Option Event} :
      Turns a h s → (∀ u, s.pc u = .idle) → step a s (.call t q) = some (s', e) → Turns a (e.toList ++ h) s'
  | step {h : List Event} {s s' : State} {t : Nat} {e : Option Event} :
      Turns a h s → step a s (.step t) = some (s', e) → Turns a (e.toList ++ h) s'

theorem turns_exec {a : Addr} {h : List Event} {s : State} (hx : Turns a h s) : Exec a h s := by
  induction hx with
  | start => exact .start
  | call _ _ hs ih => exact ih.next hs
  | step _ hs ih => exact ih.next hs

/-- The invariant of these executions. -/
def OneAtATime (a : Addr) (h : List Event) (s : State) : Prop :=
  (∀ t u, s.pc t ≠ .idle → s.pc u ≠ .idle → t = u)
    ∧ (∀ t q v, s.pc t = .leaving q v → v = typed a ∨ q = .copy ∧ v = .undefined)
    ∧ (∀ t q, s.pc t = .read q → s.cache = typed a ∨ q = .copy ∧ s.cache = .undefined)
    ∧ (s.cache = .undefined ∨ s.cache = typed a ∨ ∃ t q, s.pc t = .store q)
    ∧ ∀ e ∈ h, Right a e

end Shared

open Shared

/-! ## C138 -/

/-- **C138**, the accesses are all there: a transition which changes `f_private_network` is one of a thread which was about to
write it, and a transition does the same, whatever the value, when the thread was not about to access it. -/
theorem C138_accesses {a : Addr} {s s' : State} {x : Action} {e : Option Event} (h : Shared.step a s x = some (s', e)) :
    (s'.cache ≠ s.cache → access a (s.pc x.thread) = some true) ∧
      (access a (s.pc x.thread) = none → ∀ c, Shared.step a { s with cache := c } x = some ({ s' with cache := c }, e)) := by
  constructor
  · intro hc
    obtain ⟨c, p, hm, rfl⟩ := step_moves h
    have hc : c ≠ s.cache := hc
    cases hm with
    | mark q hp => rw [hp]; rfl
    | store q hp hn => rw [hp, access, classify_typed, if_neg hn]
    | _ => exact absurd rfl hc
  · intro hn c
    cases x with
    | call t q =>
      unfold Shared.step at h ⊢
      dsimp only at h ⊢
      split at h
      · cases q <;> cases h <;> rfl
      · cases h
    | step t =>
      have hn : access a (s.pc t) = none := hn
      unfold Shared.step at h ⊢
      cases hp : s.pc t with
      | idle => simp only [hp] at h; cases h
      | test q | mark q | read q => rw [hp] at hn; cases hn
      | store q =>
        rw [hp, access] at hn
        by_cases hc : Addr.classify a.bytes a.isIpv4 = .unknown
        · simp only [hp, hc, if_true] at h ⊢
          cases h
          rfl
        · rw [if_neg hc] at hn; cases hn
      | leaving q v =>
        simp only [hp] at h ⊢
        cases h
        rfl

/-- The claim of C138: the functions which do not change an address can be called by any number of threads at the same time,
without a data race, and each returns what it returns without the other threads. -/
def C138_claim : Prop :=
  ∀ (a : Addr), Fresh a → ∀ (h : List Event) (s : State), Exec a h s → ¬ Race a s ∧ ∀ e ∈ h, Right a e

/-- Two threads are about to write the type. -/
def racingTypes : List Action := [.call 1 .type, .call 2 .type, .step 1, .step 2]

/-- C138 is false: there is a data race when two threads are the first ones to ask. -/
theorem C138_claim_fails : ¬ C138_claim := by
  intro hc
  have hr : ∃ y, run (sampleV4 10 0 0 1) racingTypes ([], init (sampleV4 10 0 0 1)) = some y ∧ y.2.pc 1 = .mark .type ∧
      y.2.pc 2 = .mark .type := ⟨_, rfl, rfl, rfl⟩
  obtain ⟨⟨h, s⟩, hr, h1, h2⟩ := hr
  have h1 : s.pc 1 = .mark .type := h1
  have h2 : s.pc 2 = .mark .type := h2
  refine (hc _ (.inl rfl) _ _ (run_exec .start hr)).1 ⟨1, 2, true, true, by decide, ?_, ?_, .inl rfl⟩
  · rw [h1]; rfl
  · rw [h2]; rfl

/-- A thread asks while another one is between its two writes. -/
def askedBetween (q : Question) : List Action :=
  [.call 1 .type, .step 1, .step 1, .call 2 q, .step 2, .step 2, .step 2]

/-- C138, even if the accesses were atomic the answers would be wrong: a thread gets that the private address 10.0.0.1 is one of
the Internet, and that it is not one of the local network. -/
theorem C138_answers_fail : ∃ (a : Addr) (h h' : List Event) (s s' : State), a.privateNetwork = .undefined ∧
    isPrivate (ip a.getIpv6.addr) ∧ Exec a h s ∧ ⟨2, .wan false, .bool true⟩ ∈ h ∧
    Exec a h' s' ∧ ⟨2, .lan true, .bool false⟩ ∈ h' := by
  have h1 : ∃ y, run (sampleV4 10 0 0 1) (askedBetween (.wan false)) ([], init (sampleV4 10 0 0 1)) = some y ∧
      (⟨2, .wan false, .bool true⟩ : Event) ∈ y.1 := ⟨_, rfl, List.mem_cons_self⟩
  have h2 : ∃ y, run (sampleV4 10 0 0 1) (askedBetween (.lan true)) ([], init (sampleV4 10 0 0 1)) = some y ∧
      (⟨2, .lan true, .bool false⟩ : Event) ∈ y.1 := ⟨_, rfl, List.mem_cons_self⟩
  obtain ⟨⟨h, s⟩, hr, hm⟩ := h1
  obtain ⟨⟨h', s'⟩, hr', hm'⟩ := h2
  exact ⟨_, h, h', s, s', rfl, by decide +kernel, run_exec .start hr, hm, run_exec .start hr', hm'⟩

/-- C138, a copy made at that moment stays wrong: it says forever that it is an address of the Internet. -/
theorem C138_copy_fails : ∃ (a c : Addr) (h : List Event) (s : State), a.privateNetwork = .undefined ∧
    isPrivate (ip a.getIpv6.addr) ∧ Exec a h s ∧ ⟨2, .copy, .copy c⟩ ∈ h ∧ c.isWan false = true ∧
    c.getNetworkType.1 = c := by
  have h1 : ∃ y, run (sampleV4 10 0 0 1) [.call 1 .type, .step 1, .step 1, .call 2 .copy, .step 2, .step 2]
      ([], init (sampleV4 10 0 0 1)) = some y ∧
      (⟨2, .copy, .copy { sampleV4 10 0 0 1 with privateNetwork := .unknown }⟩ : Event) ∈ y.1 :=
    ⟨_, rfl, List.mem_cons_self⟩
  obtain ⟨⟨h, s⟩, hr, hm⟩ := h1
  exact ⟨_, _, h, s, rfl, by decide +kernel, run_exec .start hr, hm, rfl, rfl⟩

/-- **C138**, what is true of all executions: a reply is the right one, or the one for an address of the Internet. -/
theorem C138_partial {a : Addr} (hf : Fresh a) {h : List Event} {s : State} (hx : Exec a h s) {e : Event} (he : e ∈ h) :
    Right a e ∨ e.reply = e.question.answer { a with privateNetwork := .unknown } :=
  (inv_exec hf hx).replies e he

/-- **C138**, the addresses of the Internet are never taken for something else. -/
theorem C138_public {a : Addr} (hf : Fresh a) (ht : typeOf (ip a.getIpv6.addr) = .unknown) {h : List Event} {s : State}
    (hx : Exec a h s) {e : Event} (he : e ∈ h) : Right a e := by
  rcases C138_partial hf hx he with h1 | h1
  · exact h1
  · obtain ⟨t, q, r⟩ := e
    have h1 : r = q.answer { a with privateNetwork := .unknown } := h1
    rw [h1]
    exact right_of hf (.inl ht.symm)

/-- **C138**, once the type is known nothing is written any more: an address whose type was asked before it is shared can be
used by any number of threads. -/
theorem C138_asked {a : Addr} (hf : Fresh a) (hc : a.privateNetwork ≠ .undefined) {h : List Event} {s : State} (hx : Exec a h s) :
    s.cache = a.privateNetwork ∧ ¬ Race a s ∧ ∀ e ∈ h, Right a e := by
  have hc' : a.privateNetwork = typed a := hf.resolve_left hc
  have hi : s.cache = typed a ∧ (∀ t, (∃ q, s.pc t = .test q ∨ s.pc t = .read q) ∨ (∃ q, s.pc t = .leaving q (typed a)) ∨ s.pc t = .idle)
      ∧ ∀ e ∈ h, Right a e := by
    induction hx with
    | start => exact ⟨hc', fun t => .inr (.inr rfl), fun e he => nomatch he⟩
    | @next h s s' x e hx hs ih =>
      obtain ⟨i1, i2, i3⟩ := ih
      obtain ⟨c, p, hm, rfl⟩ := step_moves hs
      generalize x.thread = t at hm
      have hk : (∃ q, p = .test q ∨ p = .read q) ∨ (∃ q, p = .leaving q (typed a)) ∨ p = .idle →
          ∀ u, (∃ q, ({ s with cache := c }.move t p).pc u = .test q ∨ ({ s with cache := c }.move t p).pc u = .read q) ∨
            (∃ q, ({ s with cache := c }.move t p).pc u = .leaving q (typed a)) ∨ ({ s with cache := c }.move t p).pc u = .idle := by
        intro hp u
        rw [pc_move]
        by_cases hu : u = t
        · rw [if_pos hu]
          exact hp
        · rw [if_neg hu]
          exact i2 u
      have no : ∀ {q : Question}, s.pc t = .mark q ∨ s.pc t = .store q → False := by
        intro q h0
        rcases i2 t with ⟨q', h1 | h1⟩ | ⟨q', h1⟩ | h1 <;> rw [h1] at h0 <;> rcases h0 with h0 | h0 <;> cases h0
      cases hm with
      | copy hp => exact ⟨i1, hk (.inl ⟨_, .inr rfl⟩), i3⟩
      | call q hq hp => exact ⟨i1, hk (.inl ⟨_, .inl rfl⟩), i3⟩
      | unset q hp h0 => exact absurd (i1.symm.trans h0) (typed_ne a)
      | set q hp h0 => exact ⟨i1, hk (.inl ⟨_, .inr rfl⟩), i3⟩
      | mark q hp => exact (no (.inl hp)).elim
      | keep q hp h0 => exact (no (.inr hp)).elim
      | store q hp h0 => exact (no (.inr hp)).elim
      | read q hp => exact ⟨i1, hk (.inr (.inl ⟨q, by rw [i1]⟩)), i3⟩
      | leave q v hp =>
        refine ⟨i1, hk (.inr (.inr rfl)), fun e he => ?_⟩
        rcases List.mem_cons.1 he with rfl | he
        · refine right_of hf (.inl ?_)
          rcases i2 t with ⟨q', h1 | h1⟩ | ⟨q', h1⟩ | h1 <;> rw [hp] at h1 <;> cases h1
          rfl
        · exact i3 e he
  obtain ⟨i1, i2, i3⟩ := hi
  refine ⟨i1.trans hc'.symm, ?_, i3⟩
  rintro ⟨t, u, w, w', -, h1, h2, h3⟩
  have no : ∀ v, access a (s.pc v) ≠ some true := by
    intro v h0
    rcases i2 v with ⟨q', h1 | h1⟩ | ⟨q', h1⟩ | h1 <;> rw [h1] at h0 <;> cases h0
  rcases h3 with rfl | rfl
  · exact no t h1
  · exact no u h2

/-- **C138**, exactly: an address can be shared without a data race if and only if its type is known already. -/
theorem C138_race_iff {a : Addr} (hf : Fresh a) :
    (∃ h s, Exec a h s ∧ Race a s) ↔ a.privateNetwork = .undefined := by
  constructor
  · rintro ⟨h, s, hx, hr⟩
    by_cases hc : a.privateNetwork = .undefined
    · exact hc
    · exact absurd hr (C138_asked hf hc hx).2.1
  · intro hc
    have h1 : Exec a [] (((init a).move 1 (.test .type)).move 2 (.test .type)) :=
      (Exec.start.next (x := .call 1 .type) (e := none) rfl).next (x := .call 2 .type) (e := none) rfl
    have h2 : Exec a [] ((((init a).move 1 (.test .type)).move 2 (.test .type)).move 1 (.mark .type)) := by
      refine h1.next (x := .step 1) (e := none) ?_
      show some ((if a.privateNetwork = .undefined then _ else _), none) = _
      rw [if_pos hc]
    exact ⟨_, _, h2, 1, 2, true, false, by decide, rfl, rfl, .inl rfl⟩

/-- **C138**, the answers are right exactly if the type is known already, or is the one of the Internet. -/
theorem C138_right_iff {a : Addr} (hf : Fresh a) :
    (∀ h s, Exec a h s → ∀ e ∈ h, Right a e) ↔ a.privateNetwork ≠ .undefined ∨ typeOf (ip a.getIpv6.addr) = .unknown := by
  constructor
  · intro hr
    by_cases hc : a.privateNetwork = .undefined
    · refine .inr (Classical.byContradiction fun ht => ?_)
      have ht : typed a ≠ .unknown := ht
      let s1 := ((init a).move 1 (.test .type)).move 1 (.mark .type)
      let s2 := ({ s1 with cache := .unknown }.move 1 (.store .type)).move 2 (.test .type)
      let s3 := ((s2.move 2 (.read .type)).move 2 (.leaving .type .unknown)).move 2 .idle
      have h1 : Exec a [] s1 := by
        refine Exec.next (s := (init a).move 1 (.test .type)) (x := .step 1) (e := none)
          (Exec.start.next (x := .call 1 .type) (e := none) rfl) ?_
        show some ((if a.privateNetwork = .undefined then _ else _), none) = _
        rw [if_pos hc]
      have h2 : Exec a [] s2 :=
        (h1.next (x := .step 1) (e := none) rfl).next (x := .call 2 .type) (e := none) rfl
      have h3 : Exec a [⟨2, .type, .type .unknown⟩] s3 :=
        ((h2.next (x := .step 2) (e := none) rfl).next (x := .step 2) (e := none) rfl).next (x := .step 2)
          (e := some ⟨2, .type, .type .unknown⟩) rfl
      have h4 : (Reply.type .unknown : Reply) = .type a.getNetworkType.2 := hr _ _ h3 _ List.mem_cons_self
      rw [getNetworkType_fresh a hf] at h4
      injection h4 with h4
      exact ht h4.symm
    · exact .inl hc
  · rintro (hc | ht) h s hx e he
    · exact (C138_asked hf hc hx).2.2 e he
    · exact C138_public hf ht hx he

/-- **C138**, the wrong value does not stay: when no thread is within a function any more the object is as it was before, or as
it is after one call made without the other threads. -/
theorem C138_settled {a : Addr} (hf : Fresh a) {h : List Event} {s : State} (hx : Exec a h s) (hq : ∀ t, s.pc t = .idle) :
    s = init a ∨ s = init a.getNetworkType.1 := by
  have hpc : s.pc = fun _ => .idle := funext hq
  have hi := (inv_exec hf hx).writing
  have eqs : ∀ b : Addr, s.cache = b.privateNetwork → s = init b := by
    intro b hb
    obtain ⟨c, p⟩ := s
    have hb : c = b.privateNetwork := hb
    have hpc : p = fun _ => .idle := hpc
    rw [hb, hpc]
    rfl
  have h1 : a.getNetworkType.1.privateNetwork = typed a := by
    rcases hf with hf | hf
    · rw [(C12_network_type a hf).2.2]
      rfl
    · unfold Addr.getNetworkType
      rw [if_neg fun h => typed_ne a (hf.symm.trans h)]
      exact hf
  rcases hi with hc | hc | ⟨t, q, ht⟩
  · by_cases ha : a.privateNetwork = .undefined
    · exact .inl (eqs a (hc.trans ha.symm))
    · exact absurd hc ((C138_asked hf ha hx).1 ▸ ha)
  · exact .inr (eqs _ (hc.trans h1.symm))
  · rw [hq t] at ht
    cases ht

/-- **C138**, the threads can take turns: when no function is called while another call is going on, every reply is right. -/
theorem C138_turns {a : Addr} (hf : Fresh a) {h : List Event} {s : State} (hx : Turns a h s) :
    ¬ Race a s ∧ ∀ e ∈ h, Right a e := by
  have hi : OneAtATime a h s := by
    have go : ∀ {h : List Event} {s s' : State} {x : Action} {e : Option Event}, Exec a h s →
        OneAtATime a h s →
        Shared.step a s x = some (s', e) → (∀ u, u ≠ x.thread → s.pc u = .idle) →
        OneAtATime a (e.toList ++ h) s' := by
      rintro h s s' x e hx ⟨-, i2, i3, i4, i5⟩ hs hid
      have hI := inv_exec hf (hx.next hs)
      have hJ := inv_exec hf hx
      obtain ⟨c, p, hm, rfl⟩ := step_moves hs
      generalize x.thread = t at hm hid hI
      have mine : ∀ u, ({ s with cache := c }.move t p).pc u ≠ .idle → u = t := by
        intro u hu
        rw [pc_move] at hu
        by_cases e : u = t
        · exact e
        · rw [if_neg e] at hu
          exact absurd (hid u e) hu
      have hmy : ({ s with cache := c }.move t p).pc t = p := if_pos rfl
      refine ⟨fun u v hu hv => (mine u hu).trans (mine v hv).symm, ?_, ?_, hI.writing, ?_⟩
      · intro u q v hu
        obtain rfl := mine u (by rw [hu]; exact fun h => nomatch h)
        rw [hmy] at hu
        subst hu
        cases hm with
        | read q hp => exact i3 _ _ hp
      · intro u q hu
        obtain rfl := mine u (by rw [hu]; exact fun h => nomatch h)
        rw [hmy] at hu
        subst hu
        have settled : (∀ q, s.pc u ≠ .store q) → s.cache = .undefined ∨ s.cache = typed a := by
          intro hn
          rcases i4 with h1 | h1 | ⟨v, q, h1⟩
          · exact .inl h1
          · exact .inr h1
          · by_cases e : v = u
            · exact absurd (e ▸ h1) (hn q)
            · rw [hid v e] at h1
              cases h1
        cases hm with
        | copy hp =>
          exact (settled fun q h => by rw [hp] at h; cases h).symm.imp_right fun h => ⟨rfl, h⟩
        | set q hp hc =>
          exact .inl ((settled fun q h => by rw [hp] at h; cases h).resolve_left hc)
        | keep q hp hc =>
          have hk := hJ.knows u
          rw [hp] at hk
          rcases hJ.cache with h1 | h1 | h1
          · exact absurd h1 hk.2
          · exact .inl h1
          · exact .inl (h1.trans hc.symm)
        | store q hp hc => exact .inl rfl
      · intro e' he
        cases hm with
        | leave q v hp =>
          rcases List.mem_cons.1 he with rfl | he
          · exact right_of hf (i2 _ _ _ hp)
          · exact i5 e' he
        | _ => exact i5 e' he
    induction hx with
    | start =>
      have hc : (init a).cache = .undefined ∨ (init a).cache = typed a := hf
      refine ⟨fun t u h => absurd rfl h, fun t q v h => ?_, fun t q h => ?_, hc.imp_right .inl, fun e he => nomatch he⟩
      · have h : Pc.idle = .leaving q v := h
        cases h
      · have h : Pc.idle = .read q := h
        cases h
    | call hx hid hs ih => exact go (turns_exec hx) ih hs fun u _ => hid u
    | @step h s s' t e hx hs ih =>
      refine go (turns_exec hx) ih hs fun u hu => ?_
      by_cases hp : s.pc u = .idle
      · exact hp
      · refine absurd (ih.1 u t hp fun h0 => ?_) hu
        simp only [Shared.step, h0] at hs
        cases hs
  refine ⟨?_, hi.2.2.2.2⟩
  rintro ⟨t, u, w, w', hne, h1, h2, -⟩
  refine hne (hi.1 t u (fun h => ?_) fun h => ?_)
  · rw [h] at h1; cases h1
  · rw [h] at h2; cases h2

/-- A complete call made by the thread 1, then one by the thread 2. -/
example : ∃ y, run (sampleV4 10 0 0 1) [.call 1 (.wan false), .step 1, .step 1, .step 1, .step 1, .step 1,
      .call 2 (.lan false), .step 2, .step 2, .step 2] ([], init (sampleV4 10 0 0 1)) = some y ∧
    y.1 = [⟨2, .lan false, .bool true⟩, ⟨1, .wan false, .bool false⟩] ∧ y.2.cache = .priv := ⟨_, rfl, rfl, rfl⟩

/-- The hypotheses are met: fresh addresses of both kinds. -/
example : Fresh (sampleV4 10 0 0 1) ∧ typeOf (ip (sampleV4 10 0 0 1).getIpv6.addr) = .priv ∧
    Fresh { sampleV4 10 0 0 1 with privateNetwork := .priv } ∧ typeOf (ip (sampleV4 8 8 8 8).getIpv6.addr) = .unknown := by
  decide +kernel

end Verif
