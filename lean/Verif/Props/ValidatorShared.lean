import Verif.Model.ValidatorShared
import Verif.Props.Validator

/-!
# C139: a validator which several threads share
-/

namespace Verif

open Spec

namespace SharedValidator

/-- A data race on the errors: two threads are about to access them, one of them to write them. -/
def Race (s : State) : Prop :=
  ∃ t u w w', t ≠ u ∧ access (s.pc t) = some w ∧ access (s.pc u) = some w' ∧ (w = true ∨ w' = true)

/-- The call ended as it does without the other threads. -/
def Right (v : Parser) (e : Event) : Prop := e.result = (Validator.validate e.env e.value v).2

/-- What happens after `s0`, while a value is validated only when no other one is being validated. -/
inductive Turns (s0 : State) : List Event → State → Prop
  | start : Turns s0 [] s0
  | call {h : List Event} {s : State} (t : Nat) (env : ParseEnv) (value : Str) :
      Turns s0 h s → (∀ u, s.pc u = .idle) → Turns s0 h (s.move t (.clear env value))
  | step {h : List Event} {s s' : State} {t : Nat} {e : Option Event} :
      Turns s0 h s → s.pc t ≠ .idle → Step t s s' e → Turns s0 (e.toList ++ h) s'

/-- The parser without its errors. -/
def cleared (p : Parser) : Parser := { p with error := [], errorCount := 0 }

theorem pc_move (s : State) (t u : Nat) (p : Pc) : (s.move t p).pc u = if u = t then p else s.pc u := rfl

theorem parser_move (s : State) (t : Nat) (p : Pc) : (s.move t p).parser = s.parser := rfl

/-- The value of a call in terms of what `parse()` logs. -/
theorem validate_logs {v : Parser} {env : ParseEnv} {value : Str} {errs : List Str} {r : Res (List Range)}
    (h : Parser.Logs v.config (Parser.parse env value) errs r) :
    (Validator.validate env value v).2 =
      match (generalizing := false) r with
      | .ok _ => .ok (if errs = [] then (true, none) else (false, some (Parser.emitAll errs (cleared v)).errorMessages))
      | .throw e => .throw e
      | .ub w => .ub w := by
  rw [validate_eq, show Parser.parse env value { v with error := [], errorCount := 0 } = (Parser.emitAll errs (cleared v), r)
    from h (cleared v) rfl]
  cases r with
  | ok l =>
    have : (Parser.emitAll errs (cleared v)).hasErrors = true ↔ errs ≠ [] := by
      cases errs with
      | nil => simp [Parser.hasErrors, Parser.emitAll, cleared]
      | cons e errs =>
        simp [Parser.hasErrors, Parser.emitAll, cleared]
    dsimp only
    by_cases he : errs = []
    · rw [if_pos he, if_neg fun h => this.1 h he]
    · rw [if_neg he, if_pos (this.2 he)]
  | throw e => rfl
  | ub w => rfl

theorem step_config {s s' : State} {t : Nat} {e : Option Event} (h : Step t s s' e) : s'.parser.config = s.parser.config := by
  cases h <;> rfl

theorem step_other {s s' : State} {t : Nat} {e : Option Event} (h : Step t s s' e) {u : Nat} (hu : u ≠ t) : s'.pc u = s.pc u := by
  cases h <;> exact if_neg hu

theorem exec_config {v : Parser} {h : List Event} {s : State} (hx : Exec v h s) : s.parser.config = v.config := by
  induction hx with
  | start => rfl
  | next _ hs ih => exact (step_config hs).trans ih

/-- What a thread knows when it is alone. -/
def Alone (v : Parser) (s : State) : Pc → Prop
  | .idle | .clear _ _ => True
  | .parse _ _ => s.parser = cleared v
  | .emit env value errs r => ∃ before, Parser.Logs v.config (Parser.parse env value) (before ++ errs) r ∧
      s.parser = Parser.emitAll before (cleared v)
  | .test env value => ∃ errs l, Parser.Logs v.config (Parser.parse env value) errs (.ok l) ∧
      s.parser = Parser.emitAll errs (cleared v)
  | .messages env value => ∃ errs l, Parser.Logs v.config (Parser.parse env value) errs (.ok l) ∧
      s.parser = Parser.emitAll errs (cleared v) ∧ errs ≠ []

theorem hasErrors_emitAll (errs : List Str) (v : Parser) : (Parser.emitAll errs (cleared v)).hasErrors = true ↔ errs ≠ [] := by
  cases errs <;> simp [Parser.hasErrors, Parser.emitAll, cleared]

structure TurnInv (v : Parser) (h : List Event) (s : State) : Prop where
  config : s.parser.config = v.config
  one : ∀ t u, s.pc t ≠ .idle → s.pc u ≠ .idle → t = u
  alone : ∀ t, Alone v s (s.pc t)
  right : ∀ e ∈ h, Right v e

theorem turn_inv {v : Parser} {s0 : State} (hc : s0.parser.config = v.config) (h0 : ∀ t, s0.pc t = .idle) {h : List Event} {s : State}
    (hx : Turns s0 h s) : TurnInv v h s := by
  induction hx with
  | start => exact ⟨hc, fun t u h => absurd (h0 t) h, fun t => by rw [h0 t]; trivial, fun e he => nomatch he⟩
  | @call h s t env value hx hid ih =>
    have mine : ∀ u, (s.move t (.clear env value)).pc u ≠ .idle → u = t := by
      intro u hu
      by_cases e : u = t
      · exact e
      · rw [pc_move, if_neg e] at hu
        exact absurd (hid u) hu
    refine ⟨ih.config, fun u w hu hw => (mine u hu).trans (mine w hw).symm, fun u => ?_, ih.right⟩
    rw [pc_move]
    by_cases e : u = t
    · rw [if_pos e]
      trivial
    · rw [if_neg e, hid u]
      trivial
  | @step h s s' t e hx hp hs ih =>
    have hid : ∀ u, u ≠ t → s.pc u = .idle := by
      intro u hu
      by_cases h0 : s.pc u = .idle
      · exact h0
      · exact absurd (ih.one u t h0 hp) hu
    have hid' : ∀ u, u ≠ t → s'.pc u = .idle := fun u hu => (step_other hs hu).trans (hid u hu)
    have mine : ∀ u, s'.pc u ≠ .idle → u = t := by
      intro u hu
      by_cases e : u = t
      · exact e
      · exact absurd (hid' u e) hu
    have all : Alone v s' (s'.pc t) → ∀ u, Alone v s' (s'.pc u) := by
      intro h0 u
      by_cases e : u = t
      · rw [e]; exact h0
      · rw [hid' u e]; trivial
    have main : Alone v s' (s'.pc t) ∧ ∀ x ∈ e.toList ++ h, Right v x := by
      have al := ih.alone t
      cases hs with
      | call env value h0 => exact absurd h0 hp
      | clear env value h0 =>
        refine ⟨?_, ih.right⟩
        rw [pc_move, if_pos rfl]
        show (Parser.clearErrors s.parser).1 = cleared v
        exact congrArg (fun c => Parser.mk c [] 0) ih.config
      | parse env value errs r h0 hl =>
        rw [h0] at al
        rw [pc_move, if_pos rfl]
        refine ⟨⟨[], ?_, ?_⟩, ih.right⟩
        · rw [← ih.config]; exact hl
        · rw [Parser.emitAll_nil]; exact al
      | emit env value e errs r h0 =>
        rw [h0] at al
        obtain ⟨before, hl, hb⟩ := al
        rw [pc_move, if_pos rfl]
        refine ⟨⟨before ++ [e], ?_, ?_⟩, ih.right⟩
        · rw [List.append_assoc]; exact hl
        · show (Parser.emitError e s.parser).1 = _
          rw [Parser.emitError_apply, hb, Parser.emitAll_append]
      | parsed env value l h0 =>
        rw [h0] at al
        obtain ⟨before, hl, hb⟩ := al
        rw [List.append_nil] at hl
        rw [pc_move, if_pos rfl]
        exact ⟨⟨before, l, hl, hb⟩, ih.right⟩
      | throws env value e h0 =>
        rw [h0] at al
        obtain ⟨before, hl, hb⟩ := al
        rw [pc_move, if_pos rfl]
        refine ⟨trivial, fun x hx => ?_⟩
        rcases List.mem_cons.1 hx with rfl | hx
        · exact (validate_logs hl).symm
        · exact ih.right x hx
      | ub env value w h0 =>
        rw [h0] at al
        obtain ⟨before, hl, hb⟩ := al
        rw [pc_move, if_pos rfl]
        refine ⟨trivial, fun x hx => ?_⟩
        rcases List.mem_cons.1 hx with rfl | hx
        · exact (validate_logs hl).symm
        · exact ih.right x hx
      | valid env value h0 hn =>
        rw [h0] at al
        obtain ⟨errs, l, hl, hb⟩ := al
        rw [pc_move, if_pos rfl]
        refine ⟨trivial, fun x hx => ?_⟩
        rcases List.mem_cons.1 hx with rfl | hx
        · rw [hb] at hn
          have he : errs = [] := by
            by_cases he : errs = []
            · exact he
            · rw [(hasErrors_emitAll errs v).2 he] at hn
              cases hn
          have := validate_logs hl
          rw [he] at this
          exact this.symm
        · exact ih.right x hx
      | invalid env value h0 hn =>
        rw [h0] at al
        obtain ⟨errs, l, hl, hb⟩ := al
        rw [pc_move, if_pos rfl]
        exact ⟨⟨errs, l, hl, hb, (hasErrors_emitAll errs v).1 (hb ▸ hn)⟩, ih.right⟩
      | messages env value h0 =>
        rw [h0] at al
        obtain ⟨errs, l, hl, hb, he⟩ := al
        rw [pc_move, if_pos rfl]
        refine ⟨trivial, fun x hx => ?_⟩
        rcases List.mem_cons.1 hx with rfl | hx
        · have := validate_logs hl
          dsimp only at this
          rw [if_neg he] at this
          show Res.ok (false, some s.parser.errorMessages) = _
          rw [hb]
          exact this.symm
        · exact ih.right x hx
    exact ⟨(step_config hs).trans ih.config, fun u w hu hw => (mine u hu).trans (mine w hw).symm, all main.1, main.2⟩

end SharedValidator

open SharedValidator

/-! ## C139 -/

/-- **C139**, the accesses are all there: a transition which changes the errors is one of a thread which was about to write them,
and a transition is possible, and does the same, whatever the errors are, when the thread was not about to access them. Nothing
else of the parser changes. -/
theorem C139_accesses {s s' : SharedValidator.State} {t : Nat} {e : Option SharedValidator.Event} (h : SharedValidator.Step t s s' e) :
    s'.parser.config = s.parser.config ∧ (s'.parser ≠ s.parser → SharedValidator.access (s.pc t) = some true) ∧
      (SharedValidator.access (s.pc t) = none → ∀ p : Parser, p.config = s.parser.config →
        SharedValidator.Step t { s with parser := p } { s' with parser := p } e) := by
  refine ⟨step_config h, fun hn => ?_, fun ha p hp => ?_⟩
  · cases h with
    | clear _ _ h0 => rw [h0]; rfl
    | emit _ _ _ _ _ h0 => rw [h0]; rfl
    | _ => exact absurd rfl hn
  · cases h with
    | call env value h0 => exact .call (s := { s with parser := p }) env value h0
    | clear env value h0 => rw [h0] at ha; cases ha
    | parse env value errs r h0 hl => exact .parse (s := { s with parser := p }) env value errs r h0 (by rw [hp]; exact hl)
    | emit env value x errs r h0 => rw [h0] at ha; cases ha
    | parsed env value l h0 => exact .parsed (s := { s with parser := p }) env value l h0
    | throws env value x h0 => exact .throws (s := { s with parser := p }) env value x h0
    | ub env value w h0 => exact .ub (s := { s with parser := p }) env value w h0
    | valid env value h0 => rw [h0] at ha; cases ha
    | invalid env value h0 => rw [h0] at ha; cases ha
    | messages env value h0 => rw [h0] at ha; cases ha

/-- The claim of C139: any number of threads can validate values with the same validator, without a data race, and each gets the
answer which it gets without the others. -/
def C139_claim : Prop :=
  ∀ (env : Validator.Env) (data : List Str) (v : Parser) (n : Nat), Validator.create env data = .ok (v, n) →
    ∀ (h : List SharedValidator.Event) (s : SharedValidator.State), SharedValidator.Exec v h s →
      ¬ SharedValidator.Race s ∧ ∀ e ∈ h, SharedValidator.Right v e

/-- **C139**, the threads can take turns: whatever happened before, as long as no value is validated while another one is, every
answer is right. -/
theorem C139_turns {v : Parser} {h0 h : List SharedValidator.Event} {s0 s : SharedValidator.State} (hx0 : SharedValidator.Exec v h0 s0)
    (hid : ∀ t, s0.pc t = .idle) (hx : SharedValidator.Turns s0 h s) :
    ¬ SharedValidator.Race s ∧ ∀ e ∈ h, SharedValidator.Right v e := by
  have hi := turn_inv (exec_config hx0) hid hx
  refine ⟨?_, hi.right⟩
  rintro ⟨t, u, w, w', hne, h1, h2, -⟩
  refine hne (hi.one t u (fun h => ?_) fun h => ?_)
  · rw [h] at h1; cases h1
  · rw [h] at h2; cases h2

namespace SharedValidator

/-- The value which a thread validates. -/
def Pc.about : Pc → Option (ParseEnv × Str)
  | .idle => none
  | .clear env value | .parse env value | .emit env value _ _ | .test env value | .messages env value => some (env, value)

/-- The value was validated, or a thread is about to. -/
def Began (h : List Event) (s : State) (env : ParseEnv) (value : Str) : Prop :=
  (∃ e ∈ h, e.env = env ∧ e.value = value) ∨ ∃ t, (s.pc t).about = some (env, value)

/-- A value which is not valid was validated, or is about to be. -/
def Bad (v : Parser) (h : List Event) (s : State) : Prop :=
  ∃ env value, Began h s env value ∧ (Validator.validate env value v).2 ≠ .ok (true, none)

theorem began_step {h : List Event} {s s' : State} {t : Nat} {e : Option Event} (hs : Step t s s' e) {env : ParseEnv} {value : Str}
    (hb : Began h s env value) : Began (e.toList ++ h) s' env value := by
  rcases hb with ⟨x, hx, h1⟩ | ⟨u, hu⟩
  · exact .inl ⟨x, List.mem_append_right _ hx, h1⟩
  · by_cases hut : u = t
    · subst hut
      cases hs with
      | call env' value' h0 => rw [h0] at hu; cases hu
      | throws _ _ _ h0 | ub _ _ _ h0 | valid _ _ h0 | messages _ _ h0 =>
        rw [h0] at hu
        cases hu
        exact .inl ⟨_, List.mem_cons_self, rfl, rfl⟩
      | clear _ _ h0 | parse _ _ _ _ h0 | emit _ _ _ _ _ h0 | parsed _ _ _ h0 | invalid _ _ h0 =>
        rw [h0] at hu
        refine .inr ⟨u, ?_⟩
        rw [pc_move, if_pos rfl]
        exact hu
    · exact .inr ⟨u, by rw [step_other hs hut]; exact hu⟩

theorem bad_step {v : Parser} {h : List Event} {s s' : State} {t : Nat} {e : Option Event} (hs : Step t s s' e)
    (hb : Bad v h s) : Bad v (e.toList ++ h) s' := by
  obtain ⟨env, value, h1, h2⟩ := hb
  exact ⟨env, value, began_step hs h1, h2⟩

/-- What a thread knows, whatever the others do. -/
def Known (v : Parser) (bad : Prop) : Pc → Prop
  | .emit env value errs r => ∃ before, Parser.Logs v.config (Parser.parse env value) (before ++ errs) r
  | .test env value => ∃ errs l, Parser.Logs v.config (Parser.parse env value) errs (.ok l)
  | .messages env value => (∃ errs l, Parser.Logs v.config (Parser.parse env value) errs (.ok l)) ∧ bad
  | _ => True

theorem known_mono {v : Parser} {b b' : Prop} (hb : b → b') {p : Pc} (h : Known v b p) : Known v b' p := by
  cases p with
  | messages => exact ⟨h.1, hb h.2⟩
  | _ => exact h

/-- The end of a call is right, except that `true` and `false` may be wrong. -/
def Nearly (v : Parser) (bad : Prop) (e : Event) : Prop :=
  (∀ x, e.result = .throw x ↔ (Validator.validate e.env e.value v).2 = .throw x) ∧
    (∀ w, e.result = .ub w ↔ (Validator.validate e.env e.value v).2 = .ub w) ∧
    ∀ m, e.result = .ok (false, m) → bad

structure Inv (v : Parser) (h : List Event) (s : State) : Prop where
  config : s.parser.config = v.config
  known : ∀ t, Known v (Bad v h s) (s.pc t)
  clean : s.parser.error = [] ∨ Bad v h s
  events : ∀ e ∈ h, Nearly v (Bad v h s) e

theorem inv_exec {v : Parser} (hv : v.error = []) {h : List Event} {s : State} (hx : Exec v h s) : Inv v h s := by
  induction hx with
  | start => exact ⟨rfl, fun t => trivial, .inl hv, fun e he => nomatch he⟩
  | @next h s s' t e hx hs ih =>
    have hb := bad_step (v := v) (h := h) hs
    have others : ∀ u, u ≠ t → Known v (Bad v (e.toList ++ h) s') (s'.pc u) := by
      intro u hu
      rw [step_other hs hu]
      exact known_mono hb (ih.known u)
    have all : Known v (Bad v (e.toList ++ h) s') (s'.pc t) → ∀ u, Known v (Bad v (e.toList ++ h) s') (s'.pc u) := by
      intro h0 u
      by_cases e : u = t
      · rw [e]; exact h0
      · exact others u e
    have old : ∀ x ∈ h, Nearly v (Bad v (e.toList ++ h) s') x := fun x hx =>
      ⟨(ih.events x hx).1, (ih.events x hx).2.1, fun m hm => hb ((ih.events x hx).2.2 m hm)⟩
    have kn := ih.known t
    have conf := (step_config hs).trans ih.config
    have clean' := ih.clean.imp_right hb
    cases hs with
    | call env value h0 =>
      exact ⟨conf, all (by rw [pc_move, if_pos rfl]; trivial), clean', old⟩
    | clear env value h0 =>
      exact ⟨conf, all (by rw [pc_move, if_pos rfl]; trivial), .inl rfl, old⟩
    | parse env value errs r h0 hl =>
      refine ⟨conf, all ?_, clean', old⟩
      rw [pc_move, if_pos rfl]
      exact ⟨[], by rw [← ih.config]; exact hl⟩
    | emit env value e errs r h0 =>
      rw [h0] at kn
      obtain ⟨before, hl⟩ := kn
      refine ⟨conf, all ?_, .inr ⟨env, value, .inr ⟨t, ?_⟩, ?_⟩, old⟩
      · rw [pc_move, if_pos rfl]
        exact ⟨before ++ [e], by rw [List.append_assoc]; exact hl⟩
      · rw [pc_move, if_pos rfl]
        rfl
      · rw [validate_logs hl]
        cases r with
        | ok l =>
          dsimp only
          rw [if_neg (by simp)]
          exact fun h => nomatch h
        | throw x => exact fun h => nomatch h
        | ub w => exact fun h => nomatch h
    | parsed env value l h0 =>
      rw [h0] at kn
      obtain ⟨before, hl⟩ := kn
      rw [List.append_nil] at hl
      refine ⟨conf, all ?_, clean', old⟩
      rw [pc_move, if_pos rfl]
      exact ⟨before, l, hl⟩
    | throws env value x h0 =>
      rw [h0] at kn
      obtain ⟨before, hl⟩ := kn
      refine ⟨conf, all (by rw [pc_move, if_pos rfl]; trivial), clean', fun y hy => ?_⟩
      rcases List.mem_cons.1 hy with rfl | hy
      · have h1 : (Validator.validate env value v).2 = .throw x := validate_logs hl
        refine ⟨fun z => ?_, fun w => ?_, fun m hm => nomatch hm⟩
        · rw [h1]
        · rw [h1]
      · exact old y hy
    | ub env value x h0 =>
      rw [h0] at kn
      obtain ⟨before, hl⟩ := kn
      refine ⟨conf, all (by rw [pc_move, if_pos rfl]; trivial), clean', fun y hy => ?_⟩
      rcases List.mem_cons.1 hy with rfl | hy
      · have h1 : (Validator.validate env value v).2 = .ub x := validate_logs hl
        refine ⟨fun z => ?_, fun w => ?_, fun m hm => nomatch hm⟩
        · rw [h1]
        · rw [h1]
      · exact old y hy
    | valid env value h0 hn =>
      rw [h0] at kn
      obtain ⟨errs, l, hl⟩ := kn
      refine ⟨conf, all (by rw [pc_move, if_pos rfl]; trivial), clean', fun y hy => ?_⟩
      rcases List.mem_cons.1 hy with rfl | hy
      · have h1 := validate_logs hl
        dsimp only at h1
        refine ⟨fun z => ?_, fun w => ?_, fun m hm => nomatch hm⟩
        · show _ ↔ (Validator.validate env value v).2 = _
          rw [h1]
          constructor <;> intro h <;> cases h
        · show _ ↔ (Validator.validate env value v).2 = _
          rw [h1]
          constructor <;> intro h <;> cases h
      · exact old y hy
    | invalid env value h0 hn =>
      rw [h0] at kn
      refine ⟨conf, all ?_, clean', old⟩
      rw [pc_move, if_pos rfl]
      refine ⟨kn, clean'.resolve_left fun he => ?_⟩
      have he : s.parser.error = [] := he
      unfold Parser.hasErrors at hn
      rw [he] at hn
      cases hn
    | messages env value h0 =>
      rw [h0] at kn
      obtain ⟨⟨errs, l, hl⟩, kb⟩ := kn
      refine ⟨conf, all (by rw [pc_move, if_pos rfl]; trivial), clean', fun y hy => ?_⟩
      rcases List.mem_cons.1 hy with rfl | hy
      · have h1 := validate_logs hl
        dsimp only at h1
        refine ⟨fun z => ?_, fun w => ?_, fun m hm => hb kb⟩
        · show _ ↔ (Validator.validate env value v).2 = _
          rw [h1]
          constructor <;> intro h <;> cases h
        · show _ ↔ (Validator.validate env value v).2 = _
          rw [h1]
          constructor <;> intro h <;> cases h
      · exact old y hy

/-- A thread emits its errors. -/
theorem exec_emits {v : Parser} {h : List Event} {t : Nat} {env : ParseEnv} {value : Str} {l : List Range} {errs : List Str} {s : State}
    (hx : Exec v h s) (hp : s.pc t = .emit env value errs (.ok l)) :
    ∃ s', Exec v h s' ∧ s'.pc t = .test env value ∧ (∀ u, u ≠ t → s'.pc u = s.pc u) ∧ s'.parser = Parser.emitAll errs s.parser := by
  induction errs generalizing s with
  | nil =>
    refine ⟨_, hx.next (.parsed env value l hp), ?_, fun u hu => ?_, ?_⟩
    · rw [pc_move, if_pos rfl]
    · rw [pc_move, if_neg hu]
    · rw [parser_move, Parser.emitAll_nil]
  | cons e errs ih =>
    obtain ⟨s', h1, h2, h3, h4⟩ := ih (hx.next (.emit env value e errs (.ok l) hp)) (by rw [pc_move, if_pos rfl])
    refine ⟨s', h1, h2, fun u hu => ?_, ?_⟩
    · rw [h3 u hu, pc_move, if_neg hu]
    · rw [h4]
      show Parser.emitAll errs (Parser.emitError e s.parser).1 = _
      rw [Parser.emitError_apply]
      exact (Parser.emitAll_append [e] errs s.parser).symm

end SharedValidator

/-- **C139**, what is true of all executions: a call throws exactly if it throws without the other threads, and the answer
`false` is only given when one of the values which were validated is invalid. -/
theorem C139_partial {env : Validator.Env} {data : List Str} {v : Parser} {n : Nat} (hc : Validator.create env data = .ok (v, n))
    {h : List SharedValidator.Event} {s : SharedValidator.State} (hx : SharedValidator.Exec v h s) {e : SharedValidator.Event} (he : e ∈ h) :
    (∀ x, e.result = .throw x ↔ (Validator.validate e.env e.value v).2 = .throw x) ∧
      ∀ m, e.result = .ok (false, m) →
        ∃ penv value, Began h s penv value ∧ (Validator.validate penv value v).2 ≠ .ok (true, none) :=
  have hi := (SharedValidator.inv_exec (created_rest hc).2.2.1 hx).events e he
  ⟨hi.1, hi.2.2⟩

/-- **C139**, as long as all values are valid all answers are right. -/
theorem C139_all_valid {env : Validator.Env} {data : List Str} {v : Parser} {n : Nat} (hc : Validator.create env data = .ok (v, n))
    {h : List SharedValidator.Event} {s : SharedValidator.State} (hx : SharedValidator.Exec v h s)
    (hv : ∀ penv value, Began h s penv value → (Validator.validate penv value v).2 = .ok (true, none))
    {e : SharedValidator.Event} (he : e ∈ h) : e.result = .ok (true, none) := by
  obtain ⟨h1, h2, h3⟩ := (SharedValidator.inv_exec (created_rest hc).2.2.1 hx).events e he
  have hw := hv e.env e.value (.inl ⟨e, he, rfl, rfl⟩)
  cases hr : e.result with
  | throw x =>
    have := (h1 x).1 hr
    rw [hw] at this
    cases this
  | ub w =>
    have := (h2 w).1 hr
    rw [hw] at this
    cases this
  | ok y =>
    obtain ⟨b, m⟩ := y
    cases b with
    | false =>
      obtain ⟨penv, value, hb, hn⟩ := h3 m hr
      exact absurd (hv penv value hb) hn
    | true =>
      -- `true` is returned without a message
      have hm : ∀ {h : List SharedValidator.Event} {s : SharedValidator.State}, SharedValidator.Exec v h s →
          ∀ e ∈ h, ∀ m, e.result = .ok (true, m) → m = none := by
        intro h s hx
        induction hx with
        | start => exact fun e he => nomatch he
        | next hx hs ih =>
          intro e he m hr
          cases hs with
          | throws | ub | valid | messages =>
            rcases List.mem_cons.1 he with rfl | he
            · cases hr <;> rfl
            · exact ih e he m hr
          | _ => exact ih e he m hr
      rw [hm hx e he m hr]

/-- **C139**, exactly where it goes wrong: any value which is invalid may be said to be valid while some other thread begins to
validate whatever value. -/
theorem C139_wrongly_valid {v : Parser} {env env' : ParseEnv} {value value' : Str} {m : Option Str}
    (hv : (Validator.validate env value v).2 = .ok (false, m)) {t u : Nat} (hne : t ≠ u) :
    ∃ h s, SharedValidator.Exec v h s ∧ ⟨t, env, value, .ok (true, none)⟩ ∈ h ∧ (s.pc u).about = some (env', value') := by
  obtain ⟨errs, r, hl⟩ := Parser.logging_parse env v.config value
  have hr := validate_logs hl
  rw [hv] at hr
  cases r with
  | throw x => cases hr
  | ub w => cases hr
  | ok l =>
    have x1 : SharedValidator.Exec v [] ((SharedValidator.init v).move u (.clear env' value')) :=
      SharedValidator.Exec.start.next (.call env' value' rfl)
    have x2 := x1.next (t := t) (.call env value (by rw [SharedValidator.pc_move, if_neg hne]; rfl))
    have x3 := x2.next (t := t) (.clear env value (by rw [SharedValidator.pc_move, if_pos rfl]))
    have x4 := x3.next (t := t) (.parse env value errs (.ok l) (by rw [SharedValidator.pc_move, if_pos rfl]) hl)
    obtain ⟨s5, x5, p5, q5, -⟩ := exec_emits (t := t) (env := env) (value := value) x4 (by rw [SharedValidator.pc_move, if_pos rfl])
    have hu : s5.pc u = .clear env' value' := by
      rw [q5 u hne.symm]
      simp only [SharedValidator.pc_move, if_neg hne.symm, if_true]
    have x6 := x5.next (t := u) (.clear env' value' hu)
    have x7 := x6.next (t := t) (.valid env value (by rw [SharedValidator.pc_move, if_neg hne]; exact p5) rfl)
    refine ⟨_, _, x7, List.mem_cons_self, ?_⟩
    rw [SharedValidator.pc_move, if_neg hne.symm, SharedValidator.pc_move, if_pos rfl]
    rfl

/-- **C139**, the other way: any valid value may be refused, with the messages about another value, which is invalid and which
another thread validates. -/
theorem C139_wrongly_invalid {v : Parser} {env env' : ParseEnv} {value value' : Str} {m : Option Str}
    (hv : (Validator.validate env value v).2 = .ok (true, none)) (hv' : (Validator.validate env' value' v).2 = .ok (false, m))
    {t u : Nat} (hne : t ≠ u) :
    ∃ h s, SharedValidator.Exec v h s ∧ ⟨t, env, value, .ok (false, m)⟩ ∈ h := by
  obtain ⟨errs, r, hl⟩ := Parser.logging_parse env v.config value
  obtain ⟨errs', r', hl'⟩ := Parser.logging_parse env' v.config value'
  have hr := validate_logs hl
  have hr' := validate_logs hl'
  rw [hv] at hr
  rw [hv'] at hr'
  cases r with
  | throw x => cases hr
  | ub w => cases hr
  | ok l =>
    cases r' with
    | throw x => cases hr'
    | ub w => cases hr'
    | ok l' =>
      dsimp only at hr hr'
      have he : errs = [] := by
        by_cases he : errs = []
        · exact he
        · rw [if_neg he] at hr; cases hr
      have he' : errs' ≠ [] := by
        intro he'
        rw [if_pos he'] at hr'
        cases hr'
      rw [if_neg he'] at hr'
      have hm : m = some (Parser.emitAll errs' (cleared v)).errorMessages := by cases hr'; rfl
      subst he
      have x1 : SharedValidator.Exec v [] ((SharedValidator.init v).move t (.clear env value)) :=
        SharedValidator.Exec.start.next (.call env value rfl)
      have x2 := x1.next (t := t) (.clear env value (by rw [SharedValidator.pc_move, if_pos rfl]))
      have x3 := x2.next (t := t) (.parse env value [] (.ok l) (by rw [SharedValidator.pc_move, if_pos rfl]) hl)
      have x4 := x3.next (t := t) (.parsed env value l (by rw [SharedValidator.pc_move, if_pos rfl]))
      have x5 := x4.next (t := u) (.call env' value' (by simp only [SharedValidator.pc_move, if_neg hne.symm]; rfl))
      have x6 := x5.next (t := u) (.clear env' value' (by rw [SharedValidator.pc_move, if_pos rfl]))
      have x7 := x6.next (t := u) (.parse env' value' errs' (.ok l') (by rw [SharedValidator.pc_move, if_pos rfl]) hl')
      obtain ⟨s8, x8, -, q8, r8⟩ := exec_emits (t := u) (env := env') (value := value') x7 (by rw [SharedValidator.pc_move, if_pos rfl])
      have ht : s8.pc t = .test env value := by
        rw [q8 t hne]
        simp only [SharedValidator.pc_move, if_neg hne, if_true]
      have r8 : s8.parser = Parser.emitAll errs' (cleared v) := r8
      have x9 := x8.next (t := t) (.invalid env value ht (by rw [r8]; exact (hasErrors_emitAll errs' v).2 he'))
      have x10 := x9.next (t := t) (.messages env value (by rw [SharedValidator.pc_move, if_pos rfl]))
      refine ⟨_, _, x10, ?_⟩
      rw [hm, ← r8]
      exact List.mem_cons_self

/-- The options of the validator of the examples. -/
def sharedOptions : List Str := ["address=yes".toList]

theorem sharedOptions_count : sampleCount sharedOptions = some 0 := by decide +kernel

/-- C139 is false: there is a data race as soon as two threads validate something at the same time. -/
theorem C139_claim_fails : ¬ C139_claim := by
  intro hc
  have x1 : SharedValidator.Exec (sampleValidator sharedOptions) []
      ((SharedValidator.init (sampleValidator sharedOptions)).move 1 (.clear sampleEnv [])) :=
    SharedValidator.Exec.start.next (.call sampleEnv [] rfl)
  have x2 := x1.next (t := 2) (.call sampleEnv [] rfl)
  exact (hc validatorEnv sharedOptions _ 0 (sampleValidator_created sharedOptions_count) _ _ x2).1
    ⟨1, 2, true, true, by decide, rfl, rfl, .inl rfl⟩

/-- Whether a value is valid. -/
def sharedAnswer (value : String) : Option Bool :=
  match (Validator.validate sampleEnv value.toList (sampleValidator sharedOptions)).2 with
  | .ok (b, _) => some b
  | _ => none

theorem sharedAnswer_invalid : sharedAnswer "10.1.2." = some false := by decide +kernel

theorem sharedAnswer_valid : sharedAnswer "10.1.2.3" = some true := by decide +kernel

/-- C139, even if the functions of the parser were atomic: a text which is not an address is said to be valid. -/
theorem C139_answers_fail : ∃ (v : Parser) (h : List SharedValidator.Event) (s : SharedValidator.State) (m : Option Str),
    Validator.create validatorEnv sharedOptions = .ok (v, 0) ∧
    (Validator.validate sampleEnv "10.1.2.".toList v).2 = .ok (false, m) ∧ SharedValidator.Exec v h s ∧
    ⟨1, sampleEnv, "10.1.2.".toList, .ok (true, none)⟩ ∈ h := by
  obtain ⟨m, hm⟩ : ∃ m, (Validator.validate sampleEnv "10.1.2.".toList (sampleValidator sharedOptions)).2 = .ok (false, m) := by
    have h0 := sharedAnswer_invalid
    unfold sharedAnswer at h0
    split at h0
    · next b m hb =>
      cases h0
      exact ⟨m, hb⟩
    · cases h0
  obtain ⟨h, s, hx, he, -⟩ := C139_wrongly_valid (env' := sampleEnv) (value' := []) hm (show (1 : Nat) ≠ 2 by decide)
  exact ⟨_, h, s, m, sampleValidator_created sharedOptions_count, hm, hx, he⟩

/-- The hypotheses are met: a value which is valid, another one which is not. -/
example : sharedAnswer "10.1.2.3" = some true ∧ sharedAnswer "10.1.2." = some false := ⟨sharedAnswer_valid, sharedAnswer_invalid⟩

end Verif
