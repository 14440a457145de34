import Verif.Model.Validator
import Verif.SpecValidator
import Verif.Lemmas.Parser

/-!
# Lemmas about the address validator
-/

namespace Verif

open Spec

namespace Validator

/-- The parser with other flags. -/
def withFlags (p : Parser) (flags : Allow → Bool) : Parser := { p with config := { p.config with flags := flags } }

/-- The value which sets a flag of the group of the addresses. -/
def word : Allow → Option Str
  | .requiredAddress => some "required".toList
  | .addressLookup => some "lookup".toList
  | .addressRange => some "range".toList
  | .multiAddressesCommas => some "commas".toList
  | .multiAddressesSpaces => some "spaces".toList
  | .multiAddressesNewlines => some "newlines".toList
  | _ => none

def knownWords : List Str :=
  ["yes".toList, "required".toList, "commas".toList, "spaces".toList, "newlines".toList, "range".toList, "lookup".toList]

theorem setAllow_bind {α : Type} (k : Int) (f : Allow) (b : Bool) (hk : Allow.ofInt k = some f) (h1 : f ≠ .multiPortsCommas)
    (m : PM α) (p : Parser) (hp : p.config.flags .multiPortsCommas = false) :
    (Parser.setAllow k b >>= fun _ => m) p = m (withFlags p fun g => if g = f then b else p.config.flags g) := by
  have : Parser.setAllow k b p = (withFlags p fun g => if g = f then b else p.config.flags g, .ok ()) := by
    simp only [Parser.setAllow, hk, PM.config_bind]
    cases b
    · rfl
    · cases f
      case multiAddressesCommas =>
        show (withFlags p _, _) = _
        congr 2
        funext g
        show (if g = .multiPortsCommas then false else if g = .multiAddressesCommas then true else p.config.flags g) = _
        by_cases hg : g = .multiPortsCommas
        · subst hg
          rw [if_pos rfl, if_neg (by decide), hp]
        · rw [if_neg hg]
      case multiPortsCommas => exact absurd rfl h1
      all_goals rfl
  rw [PM.bind_def, this]

/-- The call changes the flags only; it logs nothing exactly when `good`. -/
def Sets (p : Parser) (m : PM Nat) (flags : Allow → Bool) (good : Prop) : Prop :=
  ∃ n, m p = (withFlags p flags, .ok n) ∧ (n = 0 ↔ good)

theorem sets_pure {p : Parser} {n : Nat} {flags : Allow → Bool} {good : Prop} (h : p.config.flags = flags) (hn : n = 0 ↔ good) :
    Sets p (Pure.pure n) flags good := ⟨n, by rw [← h]; rfl, hn⟩

theorem sets_congr {p : Parser} {m : PM Nat} {flags flags' : Allow → Bool} {good good' : Prop} (h : Sets p m flags good)
    (hf : flags = flags') (hg : good ↔ good') : Sets p m flags' good' := by
  subst hf
  obtain ⟨n, h1, h2⟩ := h
  exact ⟨n, h1, h2.trans hg⟩

theorem sets_allow {p : Parser} {m : PM Nat} {flags : Allow → Bool} {good : Prop} (k : Int) (f : Allow) (b : Bool)
    (hk : Allow.ofInt k = some f) (h1 : f ≠ .multiPortsCommas) (hp : p.config.flags .multiPortsCommas = false)
    (h : Sets (withFlags p fun g => if g = f then b else p.config.flags g) m flags good) :
    Sets p (Parser.setAllow k b >>= fun _ => m) flags good := by
  obtain ⟨n, h2, h3⟩ := h
  exact ⟨n, (setAllow_bind k f b hk h1 m p hp).trans h2, h3⟩

theorem sets_one {p : Parser} (k : Int) (f : Allow) {v : Str} {good : Prop} (hk : Allow.ofInt k = some f)
    (hp : p.config.flags .multiPortsCommas = false) (h1 : f ≠ .multiPortsCommas) (hf : word f = some v)
    (hw : ∀ g, word g = some v → g = f) (hg : good) :
    Sets p (Parser.setAllow k true >>= fun _ => Pure.pure 0) (fun g => p.config.flags g || decide (word g = some v)) good := by
  refine sets_allow k f true hk h1 hp (sets_pure ?_ ⟨fun _ => hg, fun _ => rfl⟩)
  funext g
  show (if g = f then true else p.config.flags g) = _
  by_cases h : g = f
  · rw [if_pos h, h, hf, decide_eq_true rfl, Bool.or_true]
  · rw [if_neg h, decide_eq_false (fun h' => h (hw g h')), Bool.or_false]

theorem sets_addressValue (p : Parser) (hp : p.config.flags .multiPortsCommas = false) (values : List Str) (v : Str) :
    Sets p (addressValue values v) (fun f => p.config.flags f || decide (word f = some v))
      (v ∈ knownWords ∧ ¬ (v = "yes".toList ∧ "required".toList ∈ values)) := by
  unfold addressValue
  by_cases h1 : v = "commas".toList
  · rw [if_pos h1, h1]
    exact sets_one 2 .multiAddressesCommas rfl hp (by decide) rfl (by intro g; cases g <;> decide)
      ⟨by decide, fun h => absurd h.1 (by decide)⟩
  rw [if_neg h1]
  by_cases h2 : v = "lookup".toList
  · rw [if_pos h2, h2]
    exact sets_one 5 .addressLookup rfl hp (by decide) rfl (by intro g; cases g <;> decide)
      ⟨by decide, fun h => absurd h.1 (by decide)⟩
  rw [if_neg h2]
  by_cases h3 : v = "newlines".toList
  · rw [if_pos h3, h3]
    exact sets_one 4 .multiAddressesNewlines rfl hp (by decide) rfl (by intro g; cases g <;> decide)
      ⟨by decide, fun h => absurd h.1 (by decide)⟩
  rw [if_neg h3]
  by_cases h4 : v = "range".toList
  · rw [if_pos h4, h4]
    exact sets_one 6 .addressRange rfl hp (by decide) rfl (by intro g; cases g <;> decide)
      ⟨by decide, fun h => absurd h.1 (by decide)⟩
  rw [if_neg h4]
  by_cases h5 : v = "required".toList
  · rw [if_pos h5, h5]
    exact sets_one 1 .requiredAddress rfl hp (by decide) rfl (by intro g; cases g <;> decide)
      ⟨by decide, fun h => absurd h.1 (by decide)⟩
  rw [if_neg h5]
  by_cases h6 : v = "spaces".toList
  · rw [if_pos h6, h6]
    exact sets_one 3 .multiAddressesSpaces rfl hp (by decide) rfl (by intro g; cases g <;> decide)
      ⟨by decide, fun h => absurd h.1 (by decide)⟩
  rw [if_neg h6]
  have hw : p.config.flags = fun f => p.config.flags f || decide (word f = some v) := by
    funext f
    have : word f ≠ some v := by
      intro h
      cases f <;> simp only [word, Option.some.injEq, reduceCtorEq] at h
      · exact h5 h.symm
      · exact h1 h.symm
      · exact h6 h.symm
      · exact h3 h.symm
      · exact h2 h.symm
      · exact h4 h.symm
    rw [decide_eq_false this, Bool.or_false]
  by_cases h7 : v = "yes".toList
  · rw [if_pos h7]
    by_cases hr : "required".toList ∈ values
    · rw [if_pos hr]
      exact sets_pure hw ⟨(fun h => nomatch h), fun h => absurd ⟨h7, hr⟩ h.2⟩
    · rw [if_neg hr]
      exact sets_pure hw ⟨fun _ => ⟨h7 ▸ by decide, fun h => hr h.2⟩, fun _ => rfl⟩
  · rw [if_neg h7]
    refine sets_pure hw ⟨(fun h => nomatch h), fun h => ?_⟩
    have := h.1
    simp only [knownWords, List.mem_cons, List.not_mem_nil, or_false] at this
    rcases this with h | h | h | h | h | h | h <;> contradiction

theorem sets_addressLoop (values : List Str) (l : List Str) (p : Parser) (hp : p.config.flags .multiPortsCommas = false) :
    Sets p (addressLoop values l) (fun f => p.config.flags f || decide (∃ v ∈ l, word f = some v))
      (∀ v ∈ l, v ∈ knownWords ∧ ¬ (v = "yes".toList ∧ "required".toList ∈ values)) := by
  induction l generalizing p with
  | nil =>
    refine sets_pure ?_ ⟨(fun _ _ h => nomatch h), fun _ => rfl⟩
    funext f
    rw [decide_eq_false (by rintro ⟨v, h, _⟩; cases h), Bool.or_false]
  | cons v l ih =>
    obtain ⟨n, h1, h2⟩ := sets_addressValue p hp values v
    obtain ⟨m, h3, h4⟩ := ih (withFlags p fun f => p.config.flags f || decide (word f = some v)) (by
      show (p.config.flags .multiPortsCommas || decide (word .multiPortsCommas = some v)) = false
      rw [hp]
      rfl)
    refine ⟨n + m, ?_, ?_⟩
    · rw [addressLoop, PM.bind_def, h1]
      dsimp only
      rw [PM.bind_def, h3]
      dsimp only
      show (withFlags p _, _) = _
      congr 2
      funext f
      show ((p.config.flags f || decide (word f = some v)) || decide (∃ v ∈ l, word f = some v)) = _
      rw [Bool.or_assoc, ← Bool.decide_or]
      congr 1
      refine decide_eq_decide.2 ?_
      simp only [List.mem_cons, exists_eq_or_imp]
    · rw [Nat.add_eq_zero_iff, h2, h4]
      simp only [List.mem_cons, forall_eq_or_imp]

/-- Seven flags cleared. -/
def cleared : List Allow := [.address, .requiredAddress, .multiAddressesCommas, .multiAddressesSpaces, .multiAddressesNewlines,
  .addressRange, .addressLookup]

open Classical in
/-- The flags of a group from what the values allow. -/
noncomputable def newFlags (name : Str) (values : List Str) (flags : Allow → Bool) (f : Allow) : Bool :=
  if governedBy f = some name then decide (allowedBy values f) else flags f

theorem sets_addressOption (p : Parser) (hp : p.config.flags .multiPortsCommas = false) (values : List Str) :
    Sets p (addressOption values)
      (newFlags "address".toList values p.config.flags)
      (Documented "address".toList values) := by
  unfold addressOption
  refine sets_allow 0 .address false rfl (by decide) hp ?_
  refine sets_allow 1 .requiredAddress false rfl (by decide) hp ?_
  refine sets_allow 2 .multiAddressesCommas false rfl (by decide) hp ?_
  refine sets_allow 3 .multiAddressesSpaces false rfl (by decide) hp ?_
  refine sets_allow 4 .multiAddressesNewlines false rfl (by decide) hp ?_
  refine sets_allow 6 .addressRange false rfl (by decide) hp ?_
  refine sets_allow 5 .addressLookup false rfl (by decide) hp ?_
  by_cases hn : "no".toList ∈ values
  · rw [if_pos hn]
    have hdoc : Documented "address".toList values ↔ values.length = 1 := by
      constructor
      · rintro (⟨_, h | ⟨h, _⟩⟩ | ⟨h, _⟩ | ⟨h, _⟩ | ⟨h, _⟩)
        · rw [h]; rfl
        · exact absurd (h _ hn) (by decide)
        all_goals exact absurd h (by decide)
      · intro h
        obtain ⟨v, rfl⟩ := List.length_eq_one_iff.1 h
        exact .inl ⟨rfl, .inl (by rw [List.mem_singleton.1 hn])⟩
    have hf : newFlags "address".toList values p.config.flags = fun f => if f ∈ cleared then false else p.config.flags f := by
      funext f
      have : governedBy f = some "address".toList ↔ f ∈ cleared := by cases f <;> decide
      by_cases hc : f ∈ cleared
      · rw [newFlags, if_pos (this.2 hc), if_pos hc]
        refine @decide_eq_false _ (_) ?_
        revert hc
        cases f <;> intro hc <;> first | exact absurd hc (by decide) | (intro h; first | exact h hn | exact h.1 hn)
      · rw [newFlags, if_neg (fun h => hc (this.1 h)), if_neg hc]
    rw [hf]
    by_cases hl : values.length = 1
    · rw [if_neg (Classical.not_not.2 hl)]
      exact sets_pure (by funext f; cases f <;> rfl) ⟨fun _ => hdoc.2 hl, fun _ => rfl⟩
    · rw [if_pos hl]
      exact sets_pure (by funext f; cases f <;> rfl) ⟨(fun h => nomatch h), fun h => absurd (hdoc.1 h) hl⟩
  · rw [if_neg hn]
    refine sets_allow 0 .address true rfl (by decide) hp ?_
    refine sets_congr (sets_addressLoop values values _ hp) ?_ ?_
    · have hn' : ¬ ['n', 'o'] ∈ values := hn
      funext f
      cases f <;> simp [withFlags, newFlags, governedBy, allowedBy, word, hn']
    · constructor
      · intro h
        refine .inl ⟨rfl, .inr ⟨fun v hv => (h v hv).1, fun h' => (h _ h'.1).2 ⟨rfl, h'.2⟩⟩⟩
      · rintro (⟨_, h | ⟨h, h'⟩⟩ | ⟨h, _⟩ | ⟨h, _⟩ | ⟨h, _⟩)
        · exact absurd (h ▸ List.mem_singleton.2 rfl) hn
        · exact fun v hv => ⟨h v hv, fun h'' => h' ⟨h''.1 ▸ hv, h''.2⟩⟩
        all_goals exact absurd h (by decide)

theorem not_documented {name : Str} {values : List Str} (hn : name ≠ "address".toList) (hl : values.length ≠ 1) :
    ¬ Documented name values := by
  rintro (⟨h, _⟩ | ⟨_, v, _, h⟩ | ⟨_, v, _, h⟩ | ⟨_, v, _, h⟩)
  · exact hn h
  all_goals exact hl (by rw [h]; rfl)

theorem documented_comment (v : Str) : Documented "comment".toList [v]
    ↔ v = "yes".toList ∨ v = "all".toList ∨ v = "hash".toList ∨ v = "semicolon".toList ∨ v = "no".toList := by
  constructor
  · rintro (⟨h, _⟩ | ⟨_, w, h, e⟩ | ⟨h, _⟩ | ⟨h, _⟩)
    · exact absurd h (by decide)
    · rw [List.singleton_inj.1 e]
      simpa only [List.mem_cons, List.not_mem_nil, or_false] using h
    all_goals exact absurd h (by decide)
  · intro h
    exact .inr (.inl ⟨rfl, v, by simpa only [List.mem_cons, List.not_mem_nil, or_false] using h, rfl⟩)

theorem documented_mask (v : Str) : Documented "mask".toList [v] ↔ v = "yes".toList ∨ v = "no".toList ∨ v = "address".toList := by
  constructor
  · rintro (⟨h, _⟩ | ⟨h, _⟩ | ⟨_, w, h, e⟩ | ⟨h, _⟩)
    · exact absurd h (by decide)
    · exact absurd h (by decide)
    · rw [List.singleton_inj.1 e]
      simpa only [List.mem_cons, List.not_mem_nil, or_false] using h
    · exact absurd h (by decide)
  · intro h
    exact .inr (.inr (.inl ⟨rfl, v, by simpa only [List.mem_cons, List.not_mem_nil, or_false] using h, rfl⟩))

theorem documented_port (v : Str) : Documented "port".toList [v] ↔ v = "yes".toList ∨ v = "no".toList ∨ v = "required".toList := by
  constructor
  · rintro (⟨h, _⟩ | ⟨h, _⟩ | ⟨h, _⟩ | ⟨_, w, h, e⟩)
    · exact absurd h (by decide)
    · exact absurd h (by decide)
    · exact absurd h (by decide)
    · rw [List.singleton_inj.1 e]
      simpa only [List.mem_cons, List.not_mem_nil, or_false] using h
  · intro h
    exact .inr (.inr (.inr ⟨rfl, v, by simpa only [List.mem_cons, List.not_mem_nil, or_false] using h, rfl⟩))

theorem newFlags_length {name : Str} {values : List Str} (hn : name ≠ "address".toList) (hl : values.length ≠ 1) (flags : Allow → Bool)
    (f : Allow) : newFlags name values flags f = if governedBy f = some name then false else flags f := by
  unfold newFlags
  have h1 : ∀ v : Str, values ≠ [v] := fun v h => hl (by rw [h]; rfl)
  split
  · rename_i hg
    refine @decide_eq_false _ (_) ?_
    cases f <;> simp only [governedBy, Option.some.injEq, reduceCtorEq] at hg <;>
      first
      | exact absurd hg.symm hn
      | (simp only [allowedBy, not_or, not_and]; exact ⟨h1 _, h1 _, h1 _⟩)
      | (simp only [allowedBy]; exact h1 _)
      | (simp only [allowedBy, not_and]; exact fun h => absurd h hl)
  · rfl

theorem sets_commentOption (p : Parser) (hp : p.config.flags .multiPortsCommas = false) (values : List Str) :
    Sets p (commentOption values) (newFlags "comment".toList values p.config.flags) (Documented "comment".toList values) := by
  unfold commentOption
  refine sets_allow 11 .commentHash false rfl (by decide) hp ?_
  refine sets_allow 12 .commentSemicolon false rfl (by decide) hp ?_
  by_cases hl : values.length = 1
  · obtain ⟨v, rfl⟩ := List.length_eq_one_iff.1 hl
    dsimp only
    rw [documented_comment]
    by_cases h1 : v = "yes".toList ∨ v = "all".toList
    · rw [if_pos h1]
      refine sets_allow 11 .commentHash true rfl (by decide) hp (sets_allow 12 .commentSemicolon true rfl (by decide) hp
        (sets_pure ?_ ⟨fun _ => h1.elim .inl fun h => .inr (.inl h), fun _ => rfl⟩))
      funext f
      cases f <;> simp [withFlags, newFlags, governedBy, allowedBy] <;> rcases h1 with rfl | rfl <;> decide
    rw [if_neg h1]
    by_cases h2 : v = "hash".toList
    · rw [if_pos h2]
      refine sets_allow 11 .commentHash true rfl (by decide) hp (sets_pure ?_ ⟨fun _ => .inr (.inr (.inl h2)), fun _ => rfl⟩)
      subst h2
      funext f
      cases f <;> simp [withFlags, newFlags, governedBy, allowedBy]
    rw [if_neg h2]
    by_cases h3 : v = "semicolon".toList
    · rw [if_pos h3]
      refine sets_allow 12 .commentSemicolon true rfl (by decide) hp (sets_pure ?_ ⟨fun _ => .inr (.inr (.inr (.inl h3))), fun _ => rfl⟩)
      subst h3
      funext f
      cases f <;> simp [withFlags, newFlags, governedBy, allowedBy]
    rw [if_neg h3]
    have hf : (withFlags (withFlags p fun g => if g = .commentHash then false else p.config.flags g)
        fun g => if g = .commentSemicolon then false else if g = .commentHash then false else p.config.flags g).config.flags
        = newFlags "comment".toList [v] p.config.flags := by
      funext f
      cases f <;> simp [withFlags, newFlags, governedBy, allowedBy]
      all_goals exact ⟨fun h => h1 (.inl h), fun h => h1 (.inr h), by assumption⟩
    by_cases h4 : v ≠ "no".toList
    · rw [if_pos h4]
      refine sets_pure hf ⟨(fun h => nomatch h), fun h => ?_⟩
      rcases h with h | h | h | h | h
      · exact absurd (.inl h) h1
      · exact absurd (.inr h) h1
      · exact absurd h h2
      · exact absurd h h3
      · exact absurd h h4
    · rw [if_neg h4]
      exact sets_pure hf ⟨fun _ => .inr (.inr (.inr (.inr (Classical.not_not.1 h4)))), fun _ => rfl⟩
  · split
    · exact absurd rfl hl
    · refine sets_pure ?_ ⟨(fun h => nomatch h), fun h => absurd h (not_documented (by decide) hl)⟩
      funext f
      rw [newFlags_length (by decide) hl]
      cases f <;> simp [withFlags, governedBy]

theorem sets_maskOption (p : Parser) (hp : p.config.flags .multiPortsCommas = false) (values : List Str) :
    Sets p (maskOption values) (newFlags "mask".toList values p.config.flags) (Documented "mask".toList values) := by
  unfold maskOption
  refine sets_allow 9 .mask false rfl (by decide) hp ?_
  refine sets_allow 10 .addressMask false rfl (by decide) hp ?_
  by_cases hl : values.length = 1
  · obtain ⟨v, rfl⟩ := List.length_eq_one_iff.1 hl
    dsimp only
    rw [documented_mask]
    by_cases h1 : v = "no".toList
    · rw [if_neg (Classical.not_not.2 h1)]
      refine sets_pure ?_ ⟨fun _ => .inr (.inl h1), fun _ => rfl⟩
      subst h1
      funext f
      cases f <;> simp [withFlags, newFlags, governedBy, allowedBy]
    rw [if_pos h1]
    refine sets_allow 9 .mask true rfl (by decide) hp ?_
    have h1' : ¬ ['n', 'o'] = v := fun h => h1 h.symm
    by_cases h2 : v = "address".toList
    · rw [if_pos h2]
      refine sets_allow 10 .addressMask true rfl (by decide) hp (sets_pure ?_ ⟨fun _ => .inr (.inr h2), fun _ => rfl⟩)
      subst h2
      funext f
      cases f <;> simp [withFlags, newFlags, governedBy, allowedBy]
    rw [if_neg h2]
    have h2' : ¬ v = ['a', 'd', 'd', 'r', 'e', 's', 's'] := h2
    by_cases h3 : v = "yes".toList
    · rw [if_neg (Classical.not_not.2 h3)]
      refine sets_pure ?_ ⟨fun _ => .inl h3, fun _ => rfl⟩
      funext f
      cases f <;> simp [withFlags, newFlags, governedBy, allowedBy, h1', h2']
    · rw [if_pos h3]
      refine sets_pure ?_ ⟨(fun h => nomatch h), fun h => ?_⟩
      · funext f
        cases f <;> simp [withFlags, newFlags, governedBy, allowedBy, h1', h2']
      · rcases h with h | h | h <;> contradiction
  · split
    · exact absurd rfl hl
    · refine sets_pure ?_ ⟨(fun h => nomatch h), fun h => absurd h (not_documented (by decide) hl)⟩
      funext f
      rw [newFlags_length (by decide) hl]
      cases f <;> simp [withFlags, governedBy]

theorem sets_portOption (p : Parser) (hp : p.config.flags .multiPortsCommas = false) (values : List Str) :
    Sets p (portOption values) (newFlags "port".toList values p.config.flags) (Documented "port".toList values) := by
  unfold portOption
  refine sets_allow 7 .port false rfl (by decide) hp ?_
  refine sets_allow 8 .requiredPort false rfl (by decide) hp ?_
  by_cases hl : values.length = 1
  · obtain ⟨v, rfl⟩ := List.length_eq_one_iff.1 hl
    dsimp only
    rw [documented_port]
    by_cases h1 : v = "no".toList
    · rw [if_neg (Classical.not_not.2 h1)]
      refine sets_pure ?_ ⟨fun _ => .inr (.inl h1), fun _ => rfl⟩
      subst h1
      funext f
      cases f <;> simp [withFlags, newFlags, governedBy, allowedBy]
    rw [if_pos h1]
    refine sets_allow 7 .port true rfl (by decide) hp ?_
    have h1' : ¬ ['n', 'o'] = v := fun h => h1 h.symm
    by_cases h3 : v = "yes".toList
    · rw [if_neg (Classical.not_not.2 h3)]
      refine sets_pure ?_ ⟨fun _ => .inl h3, fun _ => rfl⟩
      subst h3
      funext f
      cases f <;> simp [withFlags, newFlags, governedBy, allowedBy]
    rw [if_pos h3]
    by_cases h2 : v = "required".toList
    · rw [if_pos h2]
      refine sets_allow 8 .requiredPort true rfl (by decide) hp (sets_pure ?_ ⟨fun _ => .inr (.inr h2), fun _ => rfl⟩)
      subst h2
      funext f
      cases f <;> simp [withFlags, newFlags, governedBy, allowedBy]
    rw [if_neg h2]
    have h2' : ¬ v = ['r', 'e', 'q', 'u', 'i', 'r', 'e', 'd'] := h2
    refine sets_pure ?_ ⟨(fun h => nomatch h), fun h => ?_⟩
    · funext f
      cases f <;> simp [withFlags, newFlags, governedBy, allowedBy, h1', h2']
    · rcases h with h | h | h <;> contradiction
  · split
    · exact absurd rfl hl
    · refine sets_pure ?_ ⟨(fun h => nomatch h), fun h => absurd h (not_documented (by decide) hl)⟩
      funext f
      rw [newFlags_length (by decide) hl]
      cases f <;> simp [withFlags, governedBy]

end Validator

end Verif
