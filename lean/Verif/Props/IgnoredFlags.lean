import Verif.Lemmas.ParserSort
import Verif.Props.ParserSort
import Verif.Props.ParserState

/-!
# C123: the flags which are announced but do nothing
-/

namespace Verif

/-- The two parsers have the same messages and the same count of errors, and every text has the same outcome with both and leaves
the same messages and the same count. -/
def SameReading (p q : Parser) : Prop :=
  p.errorMessages = q.errorMessages ∧ p.getErrorCount = q.getErrorCount ∧ ∀ (env : ParseEnv) (inp : Str),
    (Parser.parse env inp p).2 = (Parser.parse env inp q).2
      ∧ (Parser.parse env inp p).1.errorMessages = (Parser.parse env inp q).1.errorMessages
      ∧ (Parser.parse env inp p).1.getErrorCount = (Parser.parse env inp q).1.getErrorCount

/-- The calls which change a flag without a use: `ALLOW_ADDRESS`, `ALLOW_MULTI_PORTS_SEMICOLONS` and `ALLOW_PORT_RANGE`, and clearing
`ALLOW_MULTI_PORTS_COMMAS`. -/
inductive NoUse : ParserOp → Prop
  | address (b : Bool) : NoUse (.setAllow 0 b)
  | semicolons (b : Bool) : NoUse (.setAllow 13 b)
  | commas : NoUse (.setAllow 14 false)
  | portRange (b : Bool) : NoUse (.setAllow 15 b)

theorem SameReading.refl (p : Parser) : SameReading p p := ⟨rfl, rfl, fun _ _ => ⟨rfl, rfl, rfl⟩⟩

theorem SameReading.trans {p q r : Parser} (h1 : SameReading p q) (h2 : SameReading q r) : SameReading p r :=
  ⟨h1.1.trans h2.1, h1.2.1.trans h2.2.1, fun env inp =>
    ⟨(h1.2.2 env inp).1.trans (h2.2.2 env inp).1, (h1.2.2 env inp).2.1.trans (h2.2.2 env inp).2.1,
      (h1.2.2 env inp).2.2.trans (h2.2.2 env inp).2.2⟩⟩

/-- Parsers which differ in flags nothing tests read the same. -/
theorem sameReading_config {p q : Parser} (he : p.error = q.error) (hc : p.errorCount = q.errorCount)
    (hsep : Parser.separators q.config = Parser.separators p.config) (hcom : Parser.commentChars q.config = Parser.commentChars p.config)
    (hn : q.config.flags .multiAddressesNewlines = p.config.flags .multiAddressesNewlines) (ha : Parser.AgreeMask p.config q.config)
    (hs : p.config.sort = q.config.sort) : SameReading p q := by
  refine ⟨he, hc, fun env inp => ?_⟩
  have hrel := Parser.rel_bind (Parser.rel_parseUnsorted_text hsep hcom hn ha env inp)
    (fun l => Parser.rel_lift p.config q.config (Parser.sortResult p.config.sort l)) p q rfl rfl he hc
  have e1 : Parser.parse env inp p = (Parser.parseUnsorted env inp >>= fun l => PM.lift (Parser.sortResult p.config.sort l)) p := by
    rw [Parser.parse, PM.config_bind]
  have e2 : Parser.parse env inp q = (Parser.parseUnsorted env inp >>= fun l => PM.lift (Parser.sortResult p.config.sort l)) q := by
    rw [Parser.parse, PM.config_bind, hs]
  rw [e1, e2]
  exact ⟨hrel.1, hrel.2.1, hrel.2.2.1⟩

/-- One call. -/
theorem noUse_same (env : ParseEnv) (p : Parser) {op : ParserOp} (h : NoUse op) : SameReading p (op.run env p) := by
  have key : ∀ (f : Allow) (b : Bool), f = .address ∨ f = .multiPortsSemicolons ∨ f = .multiPortsCommas ∨ f = .portRange →
      SameReading p { p with config := Parser.setFlag p.config f b } := by
    intro f b hf
    rcases hf with rfl | rfl | rfl | rfl <;>
      exact sameReading_config rfl rfl rfl rfl rfl ⟨⟨⟨rfl, rfl, rfl, rfl, rfl, rfl, rfl, rfl, rfl⟩, rfl⟩, rfl, rfl, rfl, rfl⟩ rfl
  cases h with
  | address b => cases b <;> exact key .address _ (.inl rfl)
  | semicolons b => cases b <;> exact key .multiPortsSemicolons _ (.inr (.inl rfl))
  | commas => exact key .multiPortsCommas false (.inr (.inr (.inl rfl)))
  | portRange b => cases b <;> exact key .portRange _ (.inr (.inr (.inr rfl)))

/-- C123, calls without effect: after any number of calls which set or clear `ALLOW_ADDRESS`, `ALLOW_MULTI_PORTS_SEMICOLONS` or
`ALLOW_PORT_RANGE`, or clear `ALLOW_MULTI_PORTS_COMMAS`, every text is read as before: same outcome, same messages, same count. -/
theorem C123_no_effect (ops : List (ParseEnv × ParserOp)) (p : Parser) (h : ∀ o ∈ ops, NoUse o.2) : SameReading p (ParserOp.runAll ops p) := by
  induction ops generalizing p with
  | nil => exact .refl p
  | cons o ops ih =>
    exact (noUse_same o.1 p (h o List.mem_cons_self)).trans (ih _ fun x hx => h x (List.mem_cons_of_mem _ hx))

/-- C123, the one effect there is: allowing several ports separated by commas reads every text as not allowing several addresses
separated by commas does. -/
theorem C123_commas (p : Parser) : SameReading (Parser.setAllow 14 true p).1 (Parser.setAllow 2 false p).1 :=
  sameReading_config rfl rfl rfl rfl rfl ⟨⟨⟨rfl, rfl, rfl, rfl, rfl, rfl, rfl, rfl, rfl⟩, rfl⟩, rfl, rfl, rfl, rfl⟩ rfl

/-- C123, when commas do not separate addresses, allowing them to separate ports has no effect at all. -/
theorem C123_commas_no_effect (p : Parser) (h : (Parser.getAllowInt 2 p).2 = .ok false) : SameReading p (Parser.setAllow 14 true p).1 := by
  have h : p.config.flags .multiAddressesCommas = false := Res.ok.inj h
  have e : (Parser.setAllow 14 true p).1.config.flags = fun f => if f = .multiAddressesCommas then false
      else if f = .multiPortsCommas then true else p.config.flags f := rfl
  refine sameReading_config rfl rfl ?_ rfl rfl ⟨⟨⟨rfl, rfl, rfl, rfl, rfl, rfl, rfl, rfl, rfl⟩, rfl⟩, rfl, rfl, rfl, rfl⟩ rfl
  simp [Parser.separators, e, h]

/-- A range of ports is refused, whether it is allowed or not. -/
example : (Parser.parse sampleEnv "10.0.0.1:80-90".toList
      (ParserOp.runAll [(sampleEnv, .setAllow 15 true), (sampleEnv, .setAllow 13 true)] sampleParser)).1.getErrorCount = 1
    ∧ (Parser.parse sampleEnv "10.0.0.1:80-90".toList sampleParser).1.getErrorCount = 1 := by
  have h := (C123_no_effect [(sampleEnv, .setAllow 15 true), (sampleEnv, .setAllow 13 true)] sampleParser (by
    intro o ho
    rcases List.mem_cons.1 ho with rfl | ho
    · exact .portRange true
    · rw [List.mem_singleton.1 ho]; exact .semicolons true)).2.2 sampleEnv "10.0.0.1:80-90".toList
  have h1 : (Parser.parse sampleEnv "10.0.0.1:80-90".toList sampleParser).1.getErrorCount = 1 := by decide +kernel
  exact ⟨h.2.2.symm.trans h1, h1⟩

/-- The list is not read as a list any more. -/
example : (Parser.parse sampleEnv "10.0.0.1,10.0.0.2".toList (Parser.setAllow 14 true (Parser.setAllow 2 true sampleParser).1).1).1.getErrorCount = 1
    ∧ (Parser.parse sampleEnv "10.0.0.1,10.0.0.2".toList (Parser.setAllow 2 true sampleParser).1).1.getErrorCount = 0 := by
  decide +kernel

example : (Parser.getAllowInt 2 sampleParser).2 = .ok false := by decide

end Verif
