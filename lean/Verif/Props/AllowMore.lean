import Verif.Lemmas.ParserMore
import Verif.Props.ParserState

/-!
# C124: allowing more does not refuse nor change what was accepted
-/

namespace Verif

/-- The calls which allow more: ports, ranges of addresses, masks, masks written as addresses, and addresses left out. -/
inductive Loosens : ParserOp → Prop
  | port : Loosens (.setAllow 7 true)
  | range : Loosens (.setAllow 6 true)
  | mask : Loosens (.setAllow 9 true)
  | addressMask : Loosens (.setAllow 10 true)
  | optional : Loosens (.setAllow 1 false)

/-- The parser accepts the text: no exception, no new error, and these ranges. -/
def AcceptsAs (env : ParseEnv) (p : Parser) (inp : Str) (l : List Range) : Prop :=
  (Parser.parse env inp p).2 = .ok l ∧ (Parser.parse env inp p).1.getErrorCount = p.getErrorCount

/-- C124 as one would expect it: a text without NUL which is accepted is accepted with the same result by the parser which allows
more, when there are no default masks. -/
def C124_claim : Prop :=
  ∀ (env : ParseEnv) (p : Parser) (inp : Str) (l : List Range) (ops : List (ParseEnv × ParserOp)), Parser.SlashNoPort env → '\x00' ∉ inp →
    p.config.defaultMask4 = [] → p.config.defaultMask6 = [] → (∀ o ∈ ops, Loosens o.2) → AcceptsAs env p inp l →
    AcceptsAs env (ParserOp.runAll ops p) inp l

/-! ### What the calls change -/

theorem more_refl {c : Config} (hl : c.flags .addressLookup = false) : Parser.More c c where
  lookup := hl
  lookup' := hl
  requiredPort := rfl
  port := id
  range := id
  addressMask := id
  required := id
  mask := .inl rfl
  address4 := rfl
  address6 := rfl
  mask4 := rfl
  mask6 := rfl
  protocol := rfl
  defaultPort := rfl
  sort := rfl

/-- What the parsers still have in common. -/
structure StillSame (p q : Parser) : Prop where
  sep : Parser.separators q.config = Parser.separators p.config
  com : Parser.commentChars q.config = Parser.commentChars p.config
  newlines : q.config.flags .multiAddressesNewlines = p.config.flags .multiAddressesNewlines

theorem loosens_more (ops : List (ParseEnv × ParserOp)) (p q : Parser) (h : ∀ o ∈ ops, Loosens o.2)
    (hm : (∃ o ∈ ops, o.2 = .setAllow 9 true) → p.config.flags .mask = true ∨ (p.config.defaultMask4 = [] ∧ p.config.defaultMask6 = []))
    (h1 : Parser.More p.config q.config) (h2 : StillSame p q) :
    Parser.More p.config (ParserOp.runAll ops q).config ∧ StillSame p (ParserOp.runAll ops q) := by
  induction ops generalizing q with
  | nil => exact ⟨h1, h2⟩
  | cons o ops ih =>
    obtain ⟨env, op⟩ := o
    refine ih _ (fun x hx => h x (List.mem_cons_of_mem _ hx)) (fun ⟨x, hx, e⟩ => hm ⟨x, List.mem_cons_of_mem _ hx, e⟩) ?_ ?_
    · have hop := h _ List.mem_cons_self
      dsimp only at hop
      cases hop with
      | port => exact { h1 with port := fun _ => rfl }
      | range => exact { h1 with range := fun _ => rfl }
      | addressMask => exact { h1 with addressMask := fun _ => rfl }
      | optional => exact { h1 with required := fun h => nomatch h }
      | mask =>
        refine { h1 with mask := ?_ }
        rcases hm ⟨_, List.mem_cons_self, rfl⟩ with hm | ⟨hm4, hm6⟩
        · exact .inl hm
        · exact .inr ⟨rfl, h1.mask4 ▸ hm4, h1.mask6 ▸ hm6⟩
    · have hop := h _ List.mem_cons_self
      dsimp only at hop
      cases hop <;> exact ⟨h2.sep, h2.com, h2.newlines⟩

/-- The acceptance of a text in terms of the configuration. -/
theorem accepts_clean (env : ParseEnv) (p : Parser) (inp : Str) (l : List Range) :
    AcceptsAs env p inp l ↔ Parser.Clean p.config (Parser.parse env inp) l := by
  obtain ⟨errs, r, hr⟩ := Parser.logging_parse env p.config inp
  constructor
  · rintro ⟨h1, h2⟩
    rw [hr p rfl] at h1 h2
    change p.errorCount + _ = p.errorCount at h2
    have : errs = [] := List.length_eq_zero_iff.1 (by omega)
    subst this
    dsimp only at h1
    subst h1
    exact hr
  · intro h
    have := h p rfl
    exact ⟨by rw [this], by rw [this, Parser.emitAll_nil]⟩

/-! ### C124 -/

/-- C124, without lookups: when a text without NUL is accepted, the parser which allows ports, ranges of addresses, masks, masks
written as addresses or addresses left out besides accepts it as the same ranges. For masks, the parser has no default mask or
allows masks already. Missing: the parsers which look up names, for which it is false (`C124_claim_fails`). -/
theorem C124_more_partial (env : ParseEnv) (p : Parser) (inp : Str) (l : List Range) (ops : List (ParseEnv × ParserOp))
    (hl : (Parser.getAllowInt 5 p).2 = .ok false) (henv : Parser.SlashNoPort env) (hn : '\x00' ∉ inp)
    (hm : (∃ o ∈ ops, o.2 = .setAllow 9 true) → (Parser.getAllowInt 9 p).2 = .ok true ∨ (p.config.defaultMask4 = [] ∧ p.config.defaultMask6 = []))
    (h : ∀ o ∈ ops, Loosens o.2) (ha : AcceptsAs env p inp l) : AcceptsAs env (ParserOp.runAll ops p) inp l := by
  have hl : p.config.flags .addressLookup = false := Res.ok.inj hl
  obtain ⟨h1, h2⟩ := loosens_more ops p p h (fun h => (hm h).imp_left fun h => Res.ok.inj h) (more_refl hl) ⟨rfl, rfl, rfl⟩
  rw [accepts_clean] at ha ⊢
  exact Parser.more_parse h1 h2.sep h2.com h2.newlines henv hn ha

/-- C124, and what the more restrictive parser accepts is what both accept: the results never differ. -/
theorem C124_agree_partial (env : ParseEnv) (p : Parser) (inp : Str) (l l' : List Range) (ops : List (ParseEnv × ParserOp))
    (hl : (Parser.getAllowInt 5 p).2 = .ok false) (henv : Parser.SlashNoPort env) (hn : '\x00' ∉ inp)
    (hm : (∃ o ∈ ops, o.2 = .setAllow 9 true) → (Parser.getAllowInt 9 p).2 = .ok true ∨ (p.config.defaultMask4 = [] ∧ p.config.defaultMask6 = []))
    (h : ∀ o ∈ ops, Loosens o.2) (ha : AcceptsAs env p inp l) (hb : AcceptsAs env (ParserOp.runAll ops p) inp l') : l' = l :=
  Res.ok.inj (hb.1.symm.trans (C124_more_partial env p inp l ops hl henv hn hm h ha).1)

/-! ### Examples -/

theorem sampleEnv_slash : Parser.SlashNoPort sampleEnv := by
  intro s hs
  refine if_neg fun h => ?_
  exact absurd (List.all_eq_true.1 h.2 _ hs) (by decide)

/-- Everything of `Loosens`. -/
def openCalls : List (ParseEnv × ParserOp) :=
  [(sampleEnv, .setAllow 7 true), (sampleEnv, .setAllow 6 true), (sampleEnv, .setAllow 9 true), (sampleEnv, .setAllow 10 true),
    (sampleEnv, .setAllow 1 false)]

theorem openCalls_loosen : ∀ o ∈ openCalls, Loosens o.2 := by
  intro o ho
  simp only [openCalls, List.mem_cons, List.not_mem_nil, or_false] at ho
  rcases ho with rfl | rfl | rfl | rfl | rfl
  · exact .port
  · exact .range
  · exact .mask
  · exact .addressMask
  · exact .optional

/-- A parser of lists which refuses ports. -/
def strictParser : Parser := ParserOp.runAll [(sampleEnv, .setAllow 7 false), (sampleEnv, .setAllow 1 true), (sampleEnv, .setAllow 3 true)] sampleParser

example : ∃ l, l.length = 2 ∧ AcceptsAs sampleEnv strictParser "10.0.0.1 [::1]".toList l
    ∧ AcceptsAs sampleEnv (ParserOp.runAll openCalls strictParser) "10.0.0.1 [::1]".toList l := by
  have h : (match (Parser.parse sampleEnv "10.0.0.1 [::1]".toList strictParser).2 with
      | .ok l => decide (l.length = 2) && decide ((Parser.parse sampleEnv "10.0.0.1 [::1]".toList strictParser).1.getErrorCount = strictParser.getErrorCount)
      | _ => false) = true := by decide +kernel
  revert h
  rcases h1 : (Parser.parse sampleEnv "10.0.0.1 [::1]".toList strictParser).2 with l | e | w
  · intro h
    have h := Bool.and_eq_true_iff.1 h
    have ha : AcceptsAs sampleEnv strictParser "10.0.0.1 [::1]".toList l := ⟨h1, of_decide_eq_true h.2⟩
    exact ⟨l, of_decide_eq_true h.1, ha, C124_more_partial sampleEnv strictParser _ l openCalls (by decide) sampleEnv_slash (by decide)
      (fun _ => .inr ⟨rfl, rfl⟩) openCalls_loosen ha⟩
  · intro h; cases h
  · intro h; cases h

/-- A service which knows one name, with a hyphen. -/
def nameEnv : ParseEnv where
  getaddrinfo node _ _ _ :=
    if node = "web-1".toList then .list [.inet sizeofIn 6 { family := AF_INET, port := 0, addr := #v[10, 0, 0, 1], zero := Vector.replicate 8 0 }]
    else .error (-2) 0
  gaiStrerror _ := "Name or service not known".toList
  strerror _ := "Success".toList
  convert := sampleConvert
  getprotobyname _ := none

/-- C124 is false as stated: with lookups, the name "web-1" is accepted until ranges are allowed. -/
theorem C124_claim_fails : ¬ C124_claim := by
  intro h
  have h0 : (match (Parser.parse nameEnv "web-1".toList Parser.create).2 with
      | .ok l => decide (l.length = 1) && decide ((Parser.parse nameEnv "web-1".toList Parser.create).1.getErrorCount = Parser.create.getErrorCount)
      | _ => false) = true := by decide +kernel
  have h2 : ¬ (Parser.parse nameEnv "web-1".toList (ParserOp.runAll [(nameEnv, .setAllow 6 true)] Parser.create)).1.getErrorCount
      = (ParserOp.runAll [(nameEnv, .setAllow 6 true)] Parser.create).getErrorCount := by decide +kernel
  revert h0
  rcases h1 : (Parser.parse nameEnv "web-1".toList Parser.create).2 with l | e | w
  · intro h0
    have h0 := Bool.and_eq_true_iff.1 h0
    exact h2 (h nameEnv Parser.create _ l [(nameEnv, .setAllow 6 true)] sampleEnv_slash (by decide) rfl rfl (by
      intro o ho
      rw [List.mem_singleton.1 ho]
      exact .range) ⟨h1, of_decide_eq_true h0.2⟩).2
  · intro h; cases h
  · intro h; cases h

end Verif
