import Verif.Props.Validator

/-!
# Property C146: the order of the options of the address validator
-/

namespace Verif

open Spec

/-! ### Lemmas -/

namespace Validator

/-- The parsers differ by what they allow only. -/
def SameButFlags (p q : Parser) : Prop := withFlags p q.config.flags = q

theorem sameButFlags_iff {p q : Parser} : SameButFlags p q ↔ ∃ f, q = withFlags p f :=
  ⟨fun h => ⟨_, h.symm⟩, by rintro ⟨f, rfl⟩; rfl⟩

theorem SameButFlags.refl (p : Parser) : SameButFlags p p := rfl

theorem SameButFlags.trans {p q r : Parser} (h : SameButFlags p q) (h' : SameButFlags q r) : SameButFlags p r := by
  obtain ⟨f, rfl⟩ := sameButFlags_iff.1 h
  obtain ⟨g, rfl⟩ := sameButFlags_iff.1 h'
  rfl

theorem SameButFlags.symm {p q : Parser} (h : SameButFlags p q) : SameButFlags q p := by
  obtain ⟨f, rfl⟩ := sameButFlags_iff.1 h
  rfl

/-- The function only changes what is allowed, and what it returns does not depend on the parser. -/
def Quiet {α : Type} (m : PM α) : Prop := ∃ a, ∀ p, ∃ q, m p = (q, .ok a) ∧ SameButFlags p q

theorem quiet_pure {α : Type} (a : α) : Quiet (Pure.pure a : PM α) := ⟨a, fun p => ⟨p, rfl, .refl p⟩⟩

theorem quiet_bind {α β : Type} {m : PM α} {f : α → PM β} (hm : Quiet m) (hf : ∀ a, Quiet (f a)) : Quiet (m >>= f) := by
  obtain ⟨a, ha⟩ := hm
  obtain ⟨b, hb⟩ := hf a
  refine ⟨b, fun p => ?_⟩
  obtain ⟨q, h1, h2⟩ := ha p
  obtain ⟨r, h3, h4⟩ := hb q
  exact ⟨r, by rw [PM.bind_def, h1]; exact h3, h2.trans h4⟩

theorem quiet_setAllow (k : Int) (b : Bool) (h : (Allow.ofInt k).isSome) : Quiet (Parser.setAllow k b) := by
  unfold Parser.setAllow
  cases hk : Allow.ofInt k with
  | none => rw [hk] at h; cases h
  | some f =>
    refine ⟨(), fun p => ?_⟩
    cases b <;> cases f <;> exact ⟨_, rfl, rfl⟩

theorem quiet_addressValue (values : List Str) (v : Str) : Quiet (addressValue values v) := by
  unfold addressValue
  repeat' first
    | exact quiet_pure _
    | exact quiet_bind (quiet_setAllow _ _ rfl) fun _ => quiet_pure _
    | split

theorem quiet_addressLoop (values l : List Str) : Quiet (addressLoop values l) := by
  induction l with
  | nil => exact quiet_pure _
  | cons v l ih => exact quiet_bind (quiet_addressValue _ _) fun _ => quiet_bind ih fun _ => quiet_pure _

theorem quiet_addressOption (values : List Str) : Quiet (addressOption values) := by
  unfold addressOption
  repeat' first
    | exact quiet_pure _
    | exact quiet_addressLoop _ _
    | refine quiet_bind (quiet_setAllow _ _ rfl) fun _ => ?_
    | split

theorem quiet_commentOption (values : List Str) : Quiet (commentOption values) := by
  unfold commentOption
  repeat' first
    | exact quiet_pure _
    | refine quiet_bind (quiet_setAllow _ _ rfl) fun _ => ?_
    | split

theorem quiet_maskOption (values : List Str) : Quiet (maskOption values) := by
  unfold maskOption
  repeat' first
    | exact quiet_pure _
    | refine quiet_bind (quiet_setAllow _ _ rfl) fun _ => ?_
    | split

theorem quiet_portOption (values : List Str) : Quiet (portOption values) := by
  unfold portOption
  repeat' first
    | exact quiet_pure _
    | refine quiet_bind (quiet_setAllow _ _ rfl) fun _ => ?_
    | split

/-- What the function returns and what it does to the rest of the parser do not depend on what is allowed. -/
def Blind {α : Type} (m : PM α) : Prop := ∀ p f, ∃ q, m (withFlags p f) = (q, (m p).2) ∧ SameButFlags (m p).1 q

theorem blind_pure {α : Type} (a : α) : Blind (Pure.pure a : PM α) := fun p f => ⟨withFlags p f, rfl, rfl⟩

theorem blind_lift {α : Type} (r : Res α) : Blind (PM.lift r) := fun p f => ⟨withFlags p f, rfl, rfl⟩

theorem blind_throw {α : Type} (e : Exc) : Blind (PM.throw e : PM α) := fun p f => ⟨withFlags p f, rfl, rfl⟩

theorem blind_bind {α β : Type} {m : PM α} {f : α → PM β} (hm : Blind m) (hf : ∀ a, Blind (f a)) : Blind (m >>= f) := by
  intro p g
  obtain ⟨q, h1, h2⟩ := hm p g
  rw [PM.bind_def, PM.bind_def, h1]
  revert h1 h2
  rcases m p with ⟨p1, a | e | w⟩
  · intro _ h2
    obtain ⟨g', rfl⟩ := sameButFlags_iff.1 h2
    exact hf a p1 g'
  · exact fun _ h2 => ⟨q, rfl, h2⟩
  · exact fun _ h2 => ⟨q, rfl, h2⟩

/-- A setter which sets some of the other options of the configuration. -/
theorem blind_set (F : Config → Config) (h : ∀ c f, F { c with flags := f } = { F c with flags := f }) :
    Blind (PM.config >>= fun c => PM.setConfig (F c)) := by
  intro p f
  exact ⟨_, rfl, sameButFlags_iff.2 ⟨f, congrArg (fun c => Parser.mk c p.error p.errorCount) (h p.config f)⟩⟩

theorem blind_setDefaultAddress (t : Str) : Blind (Parser.setDefaultAddress t) := by
  unfold Parser.setDefaultAddress
  repeat' first
    | exact blind_set (fun c => { c with defaultAddress4 := [], defaultAddress6 := [] }) fun _ _ => rfl
    | exact blind_set (fun c => { c with defaultAddress6 := _ }) fun _ _ => rfl
    | exact blind_set (fun c => { c with defaultAddress4 := _ }) fun _ _ => rfl
    | exact fun p f => ⟨withFlags p f, rfl, rfl⟩
    | split

theorem blind_setDefaultPort (port : Int) : Blind (Parser.setDefaultPort port) := by
  unfold Parser.setDefaultPort
  repeat' first
    | exact blind_throw _
    | exact blind_set (fun c => { c with defaultPort := _ }) fun _ _ => rfl
    | split

theorem blind_setDefaultPortStr (env : ParseEnv) (t : Str) : Blind (Parser.setDefaultPortStr env t) := by
  unfold Parser.setDefaultPortStr
  repeat' first
    | exact blind_throw _
    | exact blind_setDefaultPort _
    | split

theorem blind_setDefaultMask (env : ParseEnv) (t : Str) : Blind (Parser.setDefaultMask env t) := by
  unfold Parser.setDefaultMask
  dsimp only
  repeat' first
    | exact blind_set (fun c => { c with defaultMask4 := [], defaultMask6 := [] }) fun _ _ => rfl
    | exact blind_set (fun c => { c with defaultMask6 := _ }) fun _ _ => rfl
    | exact blind_set (fun c => { c with defaultMask4 := _ }) fun _ _ => rfl
    | exact fun p f => ⟨withFlags p f, rfl, rfl⟩
    | split

theorem blind_useDefaults (env : Env) (a : Addr) : Blind (useDefaults env a) := by
  unfold useDefaults
  dsimp only
  repeat' first
    | exact blind_pure _
    | exact blind_setDefaultMask _ _
    | refine blind_bind (blind_lift _) fun _ => ?_
    | refine blind_bind (blind_setDefaultAddress _) fun _ => ?_
    | refine blind_bind (blind_setDefaultPortStr _ _) fun _ => ?_
    | split

theorem blind_defaultValue (env : Env) (param : Str) : Blind (defaultValue env param) := by
  unfold defaultValue
  refine blind_bind (blind_lift _) fun l => ?_
  repeat' first
    | exact blind_pure _
    | exact blind_bind (blind_useDefaults _ _) fun _ => blind_pure _
    | split

theorem blind_defaultLoop (env : Env) (l : List Str) : Blind (defaultLoop env l) := by
  induction l with
  | nil => exact blind_pure _
  | cons v l ih => exact blind_bind (blind_defaultValue _ _) fun _ => blind_bind ih fun _ => blind_pure _

theorem blind_defaultOption (env : Env) (values : List Str) : Blind (defaultOption env values) := by
  unfold defaultOption
  split
  · exact blind_bind (blind_setDefaultAddress _) fun _ => blind_bind (blind_setDefaultPortStr _ _) fun _ =>
      blind_bind (blind_setDefaultMask _ _) fun _ => blind_pure _
  · exact blind_defaultLoop _ _

end Validator

/-! ## C146 -/

/-- What an option is about; "default" and "defaults" are the same. -/
def optionKind (o : Str) : Str := if optionName o = "defaults".toList then "default".toList else optionName o

/-- The options about the same thing are the same, in the same order. -/
def SameByKind (data data' : List Str) : Prop :=
  ∀ k, data.filter (fun o => decide (optionKind o = k)) = data'.filter (fun o => decide (optionKind o = k))

theorem kinds_cons {o k : Str} {l : List Str} (h : optionKind o = k) :
    (o :: l).filter (fun o => decide (optionKind o = k)) = o :: l.filter fun o => decide (optionKind o = k) := by
  rw [List.filter_cons, if_pos (decide_eq_true h)]

theorem kinds_skip {o k : Str} {l : List Str} (h : ¬ optionKind o = k) :
    (o :: l).filter (fun o => decide (optionKind o = k)) = l.filter fun o => decide (optionKind o = k) := by
  rw [List.filter_cons, if_neg fun e => h (of_decide_eq_true e)]

namespace Validator

theorem option_quiet (env : Env) {o : Str} (h : optionKind o ≠ "default".toList) : Quiet (option env o) := by
  have h1 : ¬ (optionName o = "default".toList ∨ optionName o = "defaults".toList) := by
    rintro (e | e)
    · exact h (by rw [optionKind, e]; decide)
    · exact h (by rw [optionKind, if_pos e])
  unfold option
  split
  · exact quiet_pure _
  · rw [nameAndValues_eq]
    dsimp only
    rw [if_neg h1]
    repeat' first
      | exact quiet_pure _
      | exact quiet_addressOption _
      | exact quiet_commentOption _
      | exact quiet_maskOption _
      | exact quiet_portOption _
      | split

theorem option_blind (env : Env) {o : Str} (h : optionKind o = "default".toList) : Blind (option env o) := by
  have h1 : optionName o = "default".toList ∨ optionName o = "defaults".toList := by
    unfold optionKind at h
    split at h
    · exact .inr (by assumption)
    · exact .inl h
  have h2 : optionName o ≠ "address".toList ∧ optionName o ≠ "comment".toList := by
    rcases h1 with e | e <;> rw [e] <;> decide
  unfold option
  split
  · exact blind_pure _
  · rw [nameAndValues_eq]
    dsimp only
    rw [if_neg h2.1, if_neg h2.2, if_pos h1]
    exact blind_defaultOption _ _

/-- The number of messages of an option which has no default value. -/
noncomputable def messages (env : Env) (o : Str) : Nat :=
  open Classical in if h : optionKind o = "default".toList then 0 else (option_quiet env h).choose

theorem option_messages (env : Env) {o : Str} (h : optionKind o ≠ "default".toList) (p : Parser) :
    ∃ q, option env o p = (q, .ok (messages env o)) ∧ SameButFlags p q := by
  rw [messages, dif_neg h]
  exact (option_quiet env h).choose_spec p

/-- The options without a default value change the rest of the parser neither alone nor among the others. -/
theorem options_split (env : Env) (data : List Str) (p : Parser) (f : Allow → Bool) :
    ∃ q, options env data (withFlags p f) = (q, match (options env (data.filter fun o => decide (optionKind o = "default".toList)) p).2 with
        | .ok n => .ok ((data.map (messages env)).sum + n)
        | .throw e => .throw e
        | .ub w => .ub w)
      ∧ ((∃ n, (options env data (withFlags p f)).2 = .ok n) →
          SameButFlags (options env (data.filter fun o => decide (optionKind o = "default".toList)) p).1 q) := by
  induction data generalizing p f with
  | nil => exact ⟨withFlags p f, rfl, fun _ => rfl⟩
  | cons o data ih =>
    by_cases ho : optionKind o = "default".toList
    · rw [kinds_cons ho]
      obtain ⟨q, h1, h2⟩ := option_blind env ho p f
      have hm : messages env o = 0 := by rw [messages, dif_pos ho]
      rw [options, options, PM.bind_def, PM.bind_def, h1]
      revert h1 h2
      rcases option env o p with ⟨p1, n | e | w⟩
      · intro h1 h2
        obtain ⟨g, rfl⟩ := sameButFlags_iff.1 h2
        obtain ⟨q, h3, h4⟩ := ih p1 g
        dsimp only
        rw [PM.bind_def, PM.bind_def]
        rw [h3] at h4 ⊢
        revert h4
        rcases options env (data.filter fun o => decide (optionKind o = "default".toList)) p1 with ⟨p2, k | e | w⟩
        · intro h4
          refine ⟨q, ?_, fun _ => h4 ⟨_, rfl⟩⟩
          rw [List.map_cons, List.sum_cons, hm]
          show (q, Res.ok _) = (q, Res.ok _)
          congr 2
          omega
        · exact fun h4 => ⟨q, rfl, fun ⟨n, h⟩ => nomatch h⟩
        · exact fun h4 => ⟨q, rfl, fun ⟨n, h⟩ => nomatch h⟩
      · exact fun h1 h2 => ⟨q, rfl, fun ⟨n, h⟩ => nomatch h⟩
      · exact fun h1 h2 => ⟨q, rfl, fun ⟨n, h⟩ => nomatch h⟩
    · rw [kinds_skip ho]
      obtain ⟨q, h1, h2⟩ := option_messages env ho (withFlags p f)
      obtain ⟨g, rfl⟩ := sameButFlags_iff.1 h2
      obtain ⟨q, h3, h4⟩ := ih p g
      rw [options, PM.bind_def, h1]
      dsimp only
      rw [PM.bind_def, show withFlags (withFlags p f) g = withFlags p g from rfl]
      rw [h3] at h4 ⊢
      revert h4
      rcases options env (data.filter fun o => decide (optionKind o = "default".toList)) p with ⟨p2, k | e | w⟩
      · intro h4
        refine ⟨q, ?_, fun _ => h4 ⟨_, rfl⟩⟩
        rw [List.map_cons, List.sum_cons]
        show (q, Res.ok _) = (q, Res.ok _)
        congr 2
        omega
      · exact fun h4 => ⟨q, rfl, fun ⟨n, h⟩ => nomatch h⟩
      · exact fun h4 => ⟨q, rfl, fun ⟨n, h⟩ => nomatch h⟩

end Validator

theorem lastValues_filter (split : Str → List Str) {name : Str} (h1 : name ≠ "default".toList) (h2 : name ≠ "defaults".toList) (data : List Str) :
    lastValues split name data = lastValues split name (data.filter fun o => decide (optionKind o = name)) := by
  have hk : ∀ o, optionKind o = name ↔ optionName o = name := by
    intro o
    unfold optionKind
    split
    · rename_i e
      exact ⟨fun h => absurd h.symm h1, fun h => absurd (h.symm.trans e) h2⟩
    · rfl
  induction data with
  | nil => rfl
  | cons o data ih =>
    by_cases ho : optionKind o = name
    · rw [kinds_cons ho, lastValues, lastValues, ih]
    · rw [kinds_skip ho, lastValues, ih]
      cases lastValues split name (data.filter fun o => decide (optionKind o = name)) with
      | some v => rfl
      | none => exact if_neg fun h => ho ((hk o).2 h)

theorem sameByKind_perm {data data' : List Str} (h : SameByKind data data') : data.Perm data' := by
  refine List.perm_iff_count.2 fun o => ?_
  have := congrArg (List.count o) (h (optionKind o))
  rwa [List.count_filter (by simp), List.count_filter (by simp)] at this

/-- C146: only the order of the options about the same thing matters. The validator which results, the number of messages which
are logged and the exception, if there is one, are the same. -/
theorem C146_order (env : Validator.Env) (data data' : List Str) (h : SameByKind data data') :
    Validator.create env data = Validator.create env data' := by
  obtain ⟨q, h1, h2⟩ := Validator.options_split env data Parser.create Parser.create.config.flags
  obtain ⟨q', h1', h2'⟩ := Validator.options_split env data' Parser.create Parser.create.config.flags
  rw [show Validator.withFlags Parser.create Parser.create.config.flags = Parser.create from rfl] at h1 h1' h2 h2'
  rw [← h "default".toList] at h1' h2'
  have hsum : (data.map (Validator.messages env)).sum = (data'.map (Validator.messages env)).sum := ((sameByKind_perm h).map _).sum_nat
  rw [h1] at h2
  rw [h1'] at h2'
  rw [hsum] at h1
  revert h1 h1' h2 h2'
  rcases Validator.options env (data.filter fun o => decide (optionKind o = "default".toList)) Parser.create with ⟨p, n | e | w⟩
  · intro h1 h2 h1' h2'
    have c1 : Validator.create env data = .ok (q, (data'.map (Validator.messages env)).sum + n) := by rw [Validator.create, h1]
    have c2 : Validator.create env data' = .ok (q', (data'.map (Validator.messages env)).sum + n) := by rw [Validator.create, h1']
    obtain ⟨f, rfl⟩ := Validator.sameButFlags_iff.1 (h2 ⟨_, rfl⟩)
    obtain ⟨g, rfl⟩ := Validator.sameButFlags_iff.1 (h2' ⟨_, rfl⟩)
    have hfg : f = g := by
      funext x
      refine Bool.eq_iff_iff.2 ?_
      have e1 : f x = true ↔ _ := C69_allowed_iff env data _ _ c1 x
      have e2 : g x = true ↔ _ := C69_allowed_iff env data' _ _ c2 x
      rw [e1, e2]
      unfold allowedByOptions
      cases hg : governedBy x with
      | none => exact Iff.rfl
      | some name =>
        have hne : name ≠ "default".toList ∧ name ≠ "defaults".toList := by
          cases x <;> cases hg <;> decide
        dsimp only
        rw [lastValues_filter env.split hne.1 hne.2 data, h name, ← lastValues_filter env.split hne.1 hne.2 data']
    rw [c1, c2, hfg]
  · intro h1 h2 h1' h2'
    rw [Validator.create, Validator.create, h1, h1']
  · intro h1 h2 h1' h2'
    rw [Validator.create, Validator.create, h1, h1']

/-- C146: with options which are about different things the order does not matter at all. -/
theorem C146_any_order (env : Validator.Env) (data data' : List Str) (hp : data.Perm data') (hd : (data.map optionKind).Nodup) :
    Validator.create env data = Validator.create env data' := by
  refine C146_order env data data' fun k => ?_
  have hf := hp.filter (fun o => decide (optionKind o = k))
  have hn : ∀ l : List Str, (l.map optionKind).Nodup → (l.filter fun o => decide (optionKind o = k)).length ≤ 1 := by
    intro l
    induction l with
    | nil => exact fun _ => Nat.zero_le _
    | cons o l ih =>
      intro h
      obtain ⟨h1, h2⟩ := List.nodup_cons.1 h
      by_cases ho : optionKind o = k
      · rw [kinds_cons ho]
        have : (l.filter fun o => decide (optionKind o = k)) = [] := by
          refine List.filter_eq_nil_iff.2 fun x hx hk => h1 ?_
          rw [ho, ← of_decide_eq_true hk]
          exact List.mem_map_of_mem hx
        rw [this]
        exact Nat.le_refl 1
      · rw [kinds_skip ho]
        exact ih h2
  have hl := hn data hd
  rcases hx : data.filter (fun o => decide (optionKind o = k)) with _ | ⟨x, _ | ⟨y, l⟩⟩
  · rw [hx] at hf
    exact (List.nil_perm.1 hf).symm
  · rw [hx] at hf
    exact List.singleton_perm.1 hf
  · rw [hx] at hl
    simp at hl

/-- Three options in two orders. -/
example : Validator.create validatorEnv ["mask=no".toList, "default=10.0.0.1".toList, "address=required".toList]
    = Validator.create validatorEnv ["address=required".toList, "mask=no".toList, "default=10.0.0.1".toList] :=
  C146_any_order _ _ _ (by decide +kernel) (by decide +kernel)

/-- The order of options about the same thing matters. -/
theorem C146_same_kind :
    ∃ v w, Validator.create validatorEnv ["mask=yes".toList, "mask=no".toList] = .ok (v, 0)
      ∧ Validator.create validatorEnv ["mask=no".toList, "mask=yes".toList] = .ok (w, 0)
      ∧ v.config.flags .mask = false ∧ w.config.flags .mask = true :=
  ⟨sampleValidator ["mask=yes".toList, "mask=no".toList], sampleValidator ["mask=no".toList, "mask=yes".toList],
    sampleValidator_created (by decide +kernel), sampleValidator_created (by decide +kernel), by decide +kernel, by decide +kernel⟩

end Verif
