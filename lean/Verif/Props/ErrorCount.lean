import Verif.Lemmas.ParserCost
import Verif.Props.ParserSort
import Verif.Props.LookupLanguage

/-!
# C135: how many errors a parser counts, and how many ranges it returns

`f_error_count` is an `int`, which must not overflow.
-/

namespace Verif

open Spec

namespace Spec

/-- The most errors which a call may add, when the system gives at most `A` answers to a question. -/
def errorsOf (A : Nat) : ParserOp → Nat
  | .parse inp => (2 * A - 1) * max 1 inp.length
  | .emitError _ => 1
  | _ => 0

/-- The system gives at most `A` answers to a question. -/
def AnswersAtMost (env : ParseEnv) (A : Nat) : Prop :=
  ∀ node service numeric hint l, env.getaddrinfo node service numeric hint = .list l → l.length ≤ A

end Spec

namespace Parser

theorem sortResult_length (s : BitVec 64) (l l' : List Range) (h : sortResult s l = .ok l') : l'.length ≤ l.length := by
  rw [sortResult_eq] at h
  have h1 : ∀ l₁, (if s &&& (SORT_FULL ||| SORT_MERGE) ≠ 0 then stableSort Range.lt l else Res.ok l) = .ok l₁ → l₁.length = l.length := by
    intro l₁ h
    split at h
    · exact stableSort_length h
    · cases h; rfl
  generalize (if s &&& (SORT_FULL ||| SORT_MERGE) ≠ 0 then stableSort Range.lt l else Res.ok l) = r at h h1
  cases r with
  | throw e => cases h
  | ub e => cases h
  | ok l₁ =>
    have h1 := h1 l₁ rfl
    simp only [Res.bind_ok] at h
    have h2 : ∀ l₂, mergeStep s l₁ = .ok l₂ → l₂.length ≤ l₁.length := by
      intro l₂ h
      unfold mergeStep at h
      split at h
      · cases l₁ with
        | nil => cases h; exact Nat.le_refl _
        | cons r l₁ => exact mergeLoop_length l₁ r l₂ h
      · cases h; exact Nat.le_refl _
    generalize mergeStep s l₁ = r at h h2
    cases r with
    | throw e => cases h
    | ub e => cases h
    | ok l₂ =>
      have h2 := h2 l₂ rfl
      simp only [Res.bind_ok] at h
      unfold familyStep at h
      split at h
      · have := stableSort_length h
        omega
      · split at h
        · have := stableSort_length h
          omega
        · cases h
          omega

/-- The whole call. -/
theorem costs_parse (hA : c.flags .addressLookup = true → AtMost env A) (h1 : 1 ≤ A) (inp : Str) :
    Costs c (most c A * max 1 inp.length) List.length (parse env inp) := by
  unfold parse
  refine costs_config ?_
  refine costs_bind (w := List.length) ?_ fun l => costs_lift fun l' h => sortResult_length _ _ _ h
  unfold parseUnsorted
  refine costs_config ?_
  split
  · refine costs_mono (costs_single hA h1 inp []) ?_
    have := Nat.mul_le_mul_left (most c A) (Nat.le_max_left 1 inp.length)
    simp only [List.length_nil]
    omega
  · refine costs_mono (costs_list hA h1 inp.length inp []) ?_
    have := Nat.mul_le_mul_left (most c A) (Nat.le_max_right 1 inp.length)
    simp only [List.length_nil]
    omega


end Parser

/-- C135: without lookups a call counts at most one error per character of the text (one for the empty text), and what it returns takes
the place of errors. -/
theorem C135_numbers (env : ParseEnv) (inp : Str) (p : Parser) (hl : p.config.flags .addressLookup = false) :
    p.getErrorCount ≤ (Parser.parse env inp p).1.getErrorCount
      ∧ (Parser.parse env inp p).1.getErrorCount ≤ p.getErrorCount + max 1 inp.length
      ∧ ∀ l, (Parser.parse env inp p).2 = .ok l → (Parser.parse env inp p).1.getErrorCount + l.length ≤ p.getErrorCount + max 1 inp.length := by
  obtain ⟨_, h2, h3, h4⟩ := Parser.costs_parse (env := env) (A := 1) (fun h => by rw [hl] at h; cases h) (Nat.le_refl _) inp p rfl
  have hm : Parser.most p.config 1 = 1 := by unfold Parser.most; split <;> rfl
  rw [hm, Nat.one_mul] at h3 h4
  exact ⟨h2, h3, h4⟩

/-- C135: with lookups an item may cost as many errors or ranges as the system has answers, or twice less one of them for a range. -/
theorem C135_names (env : ParseEnv) (A : Nat) (hA : AnswersAtMost env A) (h1 : 1 ≤ A) (inp : Str) (p : Parser) :
    p.getErrorCount ≤ (Parser.parse env inp p).1.getErrorCount
      ∧ (Parser.parse env inp p).1.getErrorCount
          ≤ p.getErrorCount + ((if p.config.flags .addressRange then 2 * A - 1 else A) * max 1 inp.length : Nat)
      ∧ ∀ l, (Parser.parse env inp p).2 = .ok l → (Parser.parse env inp p).1.getErrorCount + l.length
          ≤ p.getErrorCount + ((if p.config.flags .addressRange then 2 * A - 1 else A) * max 1 inp.length : Nat) := by
  obtain ⟨_, h2, h3, h4⟩ := Parser.costs_parse (env := env) (fun _ => hA) h1 inp p rfl
  exact ⟨h2, h3, h4⟩

theorem same_allow (f : Int) (b : Bool) (p : Parser) : (Parser.setAllow f b p).1.errorCount = p.errorCount := by
  unfold Parser.setAllow
  cases Allow.ofInt f with
  | none => rfl
  | some f =>
    cases b with
    | true => cases f <;> rfl
    | false => rfl

theorem same_address (a : Str) (p : Parser) : (Parser.setDefaultAddress a p).1.errorCount = p.errorCount := by
  unfold Parser.setDefaultAddress
  rw [PM.config_bind]
  repeat' split
  all_goals rfl

theorem same_port (n : Int) (p : Parser) : (Parser.setDefaultPort n p).1.errorCount = p.errorCount := by
  unfold Parser.setDefaultPort
  split <;> rfl

theorem same_mask (env : ParseEnv) (t : Str) (p : Parser) : (Parser.setDefaultMask env t p).1.errorCount = p.errorCount := by
  unfold Parser.setDefaultMask
  rw [PM.config_bind]
  dsimp only
  cases env.convert t with
  | none =>
    repeat' split
    all_goals rfl
  | some m =>
    dsimp only
    repeat' split
    all_goals rfl

/-- C135: over any sequence of calls the counter is not negative and at most the sum of what the calls may add, so that the `int` does not
overflow as long as this sum fits. -/
theorem C135_history (A : Nat) (h1 : 1 ≤ A) (ops : List (ParseEnv × ParserOp)) (hA : ∀ x ∈ ops, AnswersAtMost x.1 A) :
    0 ≤ (ParserOp.runAll ops Parser.create).getErrorCount
      ∧ (ParserOp.runAll ops Parser.create).getErrorCount ≤ ((ops.map fun x => errorsOf A x.2).sum : Nat) := by
  have key : ∀ (ops : List (ParseEnv × ParserOp)) (p : Parser), (∀ x ∈ ops, AnswersAtMost x.1 A) → 0 ≤ p.errorCount →
      0 ≤ (ParserOp.runAll ops p).errorCount
        ∧ (ParserOp.runAll ops p).errorCount ≤ p.errorCount + ((ops.map fun x => errorsOf A x.2).sum : Nat) := by
    intro ops
    induction ops with
    | nil => exact fun p _ h => ⟨h, by simp [ParserOp.runAll]⟩
    | cons x ops ih =>
      obtain ⟨env, op⟩ := x
      intro p hA hp
      have hstep : 0 ≤ (op.run env p).errorCount ∧ (op.run env p).errorCount ≤ p.errorCount + (errorsOf A op : Nat) := by
        have keep : ∀ q : Parser, q.errorCount = p.errorCount → 0 ≤ q.errorCount ∧ q.errorCount ≤ p.errorCount + (0 : Nat) := by
          intro q hq; omega
        cases op with
        | parse inp =>
          obtain ⟨g1, g2, _⟩ := C135_names env A (hA _ List.mem_cons_self) h1 inp p
          simp only [Parser.getErrorCount] at g1 g2
          have g3 : (if p.config.flags .addressRange then 2 * A - 1 else A) * max 1 inp.length ≤ (2 * A - 1) * max 1 inp.length :=
            Nat.mul_le_mul_right _ (by split <;> omega)
          simp only [ParserOp.run, errorsOf]
          omega
        | emitError msg => simp only [ParserOp.run, errorsOf, Parser.emitError]; omega
        | clearErrors => simp only [ParserOp.run, errorsOf, Parser.clearErrors]; omega
        | setAllow f b => exact keep _ (by simp only [ParserOp.run]; exact same_allow f b p)
        | setDefaultAddress a => exact keep _ (by simp only [ParserOp.run]; exact same_address a p)
        | setDefaultPort n => exact keep _ (by simp only [ParserOp.run]; exact same_port n p)
        | setDefaultPortStr t =>
          refine keep _ ?_
          simp only [ParserOp.run, Parser.setDefaultPortStr]
          split
          · exact same_port _ p
          · cases env.convert t with
            | none => rfl
            | some n => exact same_port _ p
        | setDefaultMask t => exact keep _ (by simp only [ParserOp.run]; exact same_mask env t p)
        | setProtocol n =>
          refine keep _ ?_
          simp only [ParserOp.run, Parser.setProtocol]
          split <;> rfl
        | setProtocolStr t =>
          refine keep _ ?_
          simp only [ParserOp.run, Parser.setProtocolStr]
          cases env.getprotobyname (cstr t) <;> rfl
        | clearProtocol => exact keep _ rfl
        | setSortOrder n =>
          refine keep _ ?_
          simp only [ParserOp.run, Parser.setSortOrder]
          split <;> rfl
      obtain ⟨i1, i2⟩ := ih (op.run env p) (fun x hx => hA x (List.mem_cons_of_mem _ hx)) hstep.1
      refine ⟨i1, ?_⟩
      rw [List.map_cons, List.sum_cons]
      show (ParserOp.runAll ops (op.run env p)).errorCount ≤ _
      simp only at i2 ⊢
      omega
  have := key ops Parser.create hA (by decide)
  rw [show Parser.create.errorCount = 0 from rfl] at this
  simpa [Parser.getErrorCount] using this

/-! ### Examples -/

-- C135_numbers: three items, two errors and one address.
example : ((Parser.parse sampleEnv "x,1.2.3.4,y".toList (sortParser 0)).1.getErrorCount,
    (resultBounds (Parser.parse sampleEnv "x,1.2.3.4,y".toList (sortParser 0)).2).map List.length) = (2, some 1)
    ∧ (sortParser 0).config.flags .addressLookup = false := by
  refine ⟨?_, ?_⟩ <;> decide +kernel

/-- An environment with three answers at most. -/
theorem hostsEnv_three : AnswersAtMost hostsEnv 3 := by
  intro node service numeric hint l h
  have e : hostsEnv.getaddrinfo node service numeric hint = (if node = "gate".toList then
      .list (spread hint [.inet sizeofIn 0 { family := AF_INET, port := 0x5000, addr := #v[10, 0, 0, 1], zero := Vector.replicate 8 0 }])
    else .error (-2) 0) := rfl
  rw [e] at h
  split at h
  · cases h
    unfold spread
    split <;> simp
  · cases h

-- C135_names: one item, three addresses.
example : ((Parser.parse hostsEnv "gate".toList Parser.create).1.getErrorCount,
    (resultBounds (Parser.parse hostsEnv "gate".toList Parser.create).2).map List.length) = (0, some 3) := by decide +kernel

-- C135_history: a text of less than 400 million characters, parsed in one call or in several, cannot make the counter overflow.
example (ops : List (ParseEnv × ParserOp)) (h : ∀ x ∈ ops, x.1 = hostsEnv) (hn : (ops.map fun x => errorsOf 3 x.2).sum ≤ 5 * 400000000) :
    (ParserOp.runAll ops Parser.create).getErrorCount < 2 ^ 31 := by
  have := (C135_history 3 (by decide) ops fun x hx => h x hx ▸ hostsEnv_three).2
  omega

end Verif
