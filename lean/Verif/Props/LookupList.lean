import Verif.Props.LookupLanguage
import Verif.Props.ListLanguage

/-! C147: lists of host names (addr_parser.cpp:1262-1352, 1690-1757, 1885-2047). The entries of the list are looked up one by one: the result
is made of the answers to these questions, in the order of the list, and a name which is not known takes nothing away from the others. -/

namespace Verif

open Spec

/-- A parser of lists with lookups, without masks, ranges, comments and sorting. -/
structure LooksUpList (p : Parser) (inp : Str) : Prop where
  lookup : p.config.flags .addressLookup = true
  mask : p.config.flags .mask = false
  range : p.config.flags .addressRange = false ∨ '-' ∉ inp
  list : ListMode p
  comments : NoComments p
  sort : Unsorted p

/-- The item asks for the host `u` and the port `q`, and has the port which may be mandatory. -/
def Question (p : Parser) (e u q : Str) : Prop :=
  ∃ t, Trims e t ∧ Asks p t u q ∧ (p.config.flags .requiredPort = false ∨ q ≠ [])

/-- The answers to the questions of the items, with the question, and the number of errors: those of the answers, one for each question
without an answer, and one for each item which asks nothing. -/
inductive Answered (env : ParseEnv) (p : Parser) : List Str → List ((Str × Str) × AddrInfo) → Nat → Prop
  | nil : Answered env p [] [] 0
  | found {e u q : Str} {l : List AddrInfo} {es : List Str} {m : List ((Str × Str) × AddrInfo)} {c : Nat} (hq : Question p e u q)
      (hl : answerTo env p u q = .list l) (h : Answered env p es m c) :
      Answered env p (e :: es) ((l.filter usable).map (fun x => ((u, q), x)) ++ m) (badAnswers l + c)
  | unknown {e u q : Str} {n k : Int} {es : List Str} {m : List ((Str × Str) × AddrInfo)} {c : Nat} (hq : Question p e u q)
      (hl : answerTo env p u q = .error n k) (h : Answered env p es m c) : Answered env p (e :: es) m (c + 1)
  | refused {e : Str} {es : List Str} {m : List ((Str × Str) × AddrInfo)} {c : Nat} (hq : ¬ ∃ u q, Question p e u q)
      (h : Answered env p es m c) : Answered env p (e :: es) m (c + 1)

/-! ### Lemmas -/

section
variable {env : ParseEnv} {p : Parser}

theorem looksUp_item {inp e : Str} (h : LooksUpList p inp) (he : e ∈ items p inp) : LooksUp p e := by
  rw [items, List.mem_filter] at he
  exact ⟨h.lookup, h.mask, h.range.imp_right fun h' hc => h' (fields_sub _ _ _ he.1 _ hc),
    ⟨by simpa using he.2, fields_mem _ _ _ he.1, h.comments⟩, h.sort⟩

theorem answer_safe (hs : SafeAnswers env) {u q : Str} {l : List AddrInfo} (hl : answerTo env p u q = .list l) : ∀ x ∈ l, SafeAnswer x := by
  refine hs _ _ _ l ?_ hl
  by_cases h : p.config.protocol = IPPROTO_TCP ∨ p.config.protocol = IPPROTO_UDP
  · rw [if_pos h]
    exact .inr h
  · rw [if_neg h]
    exact .inl rfl

theorem each_append {α β : Type} {R : α → β → Prop} {a a' : List α} {b b' : List β} (h : Each R a b) (h' : Each R a' b') :
    Each R (a ++ a') (b ++ b') := by
  induction h with
  | nil => exact h'
  | cons hr _ ih => exact .cons hr ih

theorem each_asked {u q : Str} {l : List AddrInfo} {rs : List Range} (h : Each (FromAnswer u q) l rs) :
    Each (fun (x : (Str × Str) × AddrInfo) r => FromAnswer x.1.1 x.1.2 x.2 r) (l.map fun x => ((u, q), x)) rs := by
  induction h with
  | nil => exact .nil
  | cons hr _ ih => exact .cons hr ih

/-- One item then the others. -/
theorem each_step {e : Str} {es : List Str} {q : Parser} (hq : q.config = p.config) {p1 : Parser} {rs rs' : List Range} {c c' : Nat}
    (h : Parser.parse env e p = (p1, .ok rs)) (hc : p1.getErrorCount = p.getErrorCount + c)
    (ih : ∀ q : Parser, q.config = p.config → ∃ errs, parseEach env es q = (Parser.emitAll errs q, .ok rs') ∧ errs.length = c') :
    ∃ errs, parseEach env (e :: es) q = (Parser.emitAll errs q, .ok (rs ++ rs')) ∧ errs.length = c + c' := by
  obtain ⟨errs, r, hlog⟩ := Parser.logging_parse env p.config e
  have hp := hlog p rfl
  rw [h] at hp
  obtain rfl : .ok rs = r := congrArg Prod.snd hp
  obtain rfl : p1 = Parser.emitAll errs p := congrArg Prod.fst hp
  have herr : errs.length = c := by
    simp only [Parser.emitAll, Parser.getErrorCount] at hc
    omega
  obtain ⟨errs', h1, h2⟩ := ih (Parser.emitAll errs q) hq
  refine ⟨errs ++ errs', ?_, by rw [List.length_append]; omega⟩
  rw [parseEach, hlog q hq]
  dsimp only
  rw [h1, Parser.emitAll_append]

theorem answered_each (hs : SafeAnswers env) {es : List Str} (hes : ∀ e ∈ es, LooksUp p e) {m : List ((Str × Str) × AddrInfo)} {c : Nat}
    (h : Answered env p es m c) :
    ∃ rs, (∀ q : Parser, q.config = p.config → ∃ errs, parseEach env es q = (Parser.emitAll errs q, .ok rs) ∧ errs.length = c)
      ∧ Each (fun (x : (Str × Str) × AddrInfo) r => FromAnswer x.1.1 x.1.2 x.2 r) m rs := by
  induction h with
  | nil => exact ⟨[], fun q _ => ⟨[], by rw [Parser.emitAll_nil]; rfl, rfl⟩, .nil⟩
  | found hq hl _ ih =>
    obtain ⟨rs', h1, h2⟩ := ih fun e he => hes e (List.mem_cons_of_mem _ he)
    obtain ⟨t, ht, ha, hr⟩ := hq
    obtain ⟨p1, rs, g1, g2, _, g3, _⟩ := C92_found env p _ t _ _ _ (hes _ List.mem_cons_self) ht ha hr hl (answer_safe hs hl)
    exact ⟨rs ++ rs', fun q hq => each_step hq g1 (by exact_mod_cast g3) h1, each_append (each_asked g2) h2⟩
  | unknown hq hl _ ih =>
    obtain ⟨rs', h1, h2⟩ := ih fun e he => hes e (List.mem_cons_of_mem _ he)
    obtain ⟨t, ht, ha, hr⟩ := hq
    obtain ⟨p1, g1, _, g3, _⟩ := C92_unknown env p _ t _ _ _ _ (hes _ List.mem_cons_self) ht ha hr hl
    refine ⟨rs', fun q hq => ?_, h2⟩
    obtain ⟨errs, k1, k2⟩ := each_step (c := 1) hq g1 (by exact_mod_cast g3) h1
    exact ⟨errs, k1, by omega⟩
  | @refused e _ _ _ hq _ ih =>
    obtain ⟨rs', h1, h2⟩ := ih fun e he => hes e (List.mem_cons_of_mem _ he)
    obtain ⟨p1, g1, _, g3, _⟩ := C92_refused env p e _ (hes _ List.mem_cons_self) (trims_trim e) fun ⟨u, q, ha, hr⟩ => hq ⟨u, q, _, trims_trim e, ha, hr⟩
    refine ⟨rs', fun q hq => ?_, h2⟩
    obtain ⟨errs, k1, k2⟩ := each_step (c := 1) hq g1 (by exact_mod_cast g3) h1
    exact ⟨errs, k1, by omega⟩

end

/-! ### C147 -/

/-- C147: every list has its answers. -/
theorem C147_total (env : ParseEnv) (p : Parser) : ∀ es : List Str, ∃ m c, Answered env p es m c
  | [] => ⟨[], 0, .nil⟩
  | e :: es => by
    obtain ⟨m, c, h⟩ := C147_total env p es
    by_cases hq : ∃ u q, Question p e u q
    · obtain ⟨u, q, hq⟩ := hq
      cases hl : answerTo env p u q with
      | list l => exact ⟨_, _, .found hq hl h⟩
      | error n k => exact ⟨_, _, .unknown hq hl h⟩
    · exact ⟨_, _, .refused hq h⟩

/-- C147: the result is made of the usable answers to the questions of the items, in their order: there is one error for each bad answer, for
each name which is not known and for each item which asks nothing. -/
theorem C147_list (env : ParseEnv) (p : Parser) (inp : Str) (m : List ((Str × Str) × AddrInfo)) (c : Nat) (h : LooksUpList p inp)
    (hs : SafeAnswers env) (ha : Answered env p (items p inp) m c) :
    ∃ p' rs, Parser.parse env inp p = (p', .ok rs)
      ∧ Each (fun (x : (Str × Str) × AddrInfo) r => FromAnswer x.1.1 x.1.2 x.2 r) m rs
      ∧ p'.config = p.config ∧ p'.getErrorCount = p.getErrorCount + c ∧ (c = 0 → p' = p) := by
  obtain ⟨rs, h1, h2⟩ := answered_each hs (fun e he => looksUp_item h he) ha
  obtain ⟨errs, h3, h4⟩ := h1 p rfl
  refine ⟨Parser.emitAll errs p, rs, ?_, h2, rfl, ?_, ?_⟩
  · rw [C41_entrywise env inp p h.list h.comments h.sort]
    exact h3
  · simp only [Parser.emitAll, Parser.getErrorCount, h4]
  · intro h0
    rw [h0] at h4
    rw [List.eq_nil_of_length_eq_zero h4, Parser.emitAll_nil]

theorem answered_none {env : ParseEnv} {p : Parser} {es : List Str} {m : List ((Str × Str) × AddrInfo)} {c : Nat} (h : Answered env p es m c)
    (hc : c = 0) : ∀ e ∈ es, ∃ u q l, Question p e u q ∧ answerTo env p u q = .list l ∧ badAnswers l = 0 := by
  induction h with
  | nil => exact (fun _ h => nomatch h)
  | found hq hl _ ih =>
    intro e he
    rcases List.mem_cons.1 he with rfl | he
    · exact ⟨_, _, _, hq, hl, by omega⟩
    · exact ih (by omega) e he
  | unknown | refused => omega

theorem answered_mem {env : ParseEnv} {p : Parser} {es : List Str} {m : List ((Str × Str) × AddrInfo)} {c : Nat} (h : Answered env p es m c) :
    ∀ x ∈ m, ∃ e ∈ es, ∃ l, Question p e x.1.1 x.1.2 ∧ answerTo env p x.1.1 x.1.2 = .list l ∧ x.2 ∈ l ∧ usable x.2 = true := by
  induction h with
  | nil => exact (fun _ h => nomatch h)
  | found hq hl _ ih =>
    intro x hx
    rcases List.mem_append.1 hx with hx | hx
    · obtain ⟨y, hy, rfl⟩ := List.mem_map.1 hx
      rw [List.mem_filter] at hy
      exact ⟨_, List.mem_cons_self, _, hq, hl, hy.1, hy.2⟩
    · obtain ⟨e, h1, h2⟩ := ih x hx
      exact ⟨e, List.mem_cons_of_mem _ h1, h2⟩
  | unknown _ _ _ ih | refused _ _ ih =>
    intro x hx
    obtain ⟨e, h1, h2⟩ := ih x hx
    exact ⟨e, List.mem_cons_of_mem _ h1, h2⟩

theorem each_right {α β : Type} {R : α → β → Prop} {a : List α} {b : List β} (h : Each R a b) : ∀ y ∈ b, ∃ x ∈ a, R x y := by
  induction h with
  | nil => exact (fun _ h => nomatch h)
  | cons hr _ ih =>
    intro y hy
    rcases List.mem_cons.1 hy with rfl | hy
    · exact ⟨_, List.mem_cons_self, hr⟩
    · obtain ⟨x, h1, h2⟩ := ih y hy
      exact ⟨x, List.mem_cons_of_mem _ h1, h2⟩

/-- C147: whatever the list, it is read; each range comes from an answer to the question of an item, and when there is no new error every item
was asked for, and found. -/
theorem C147_sound (env : ParseEnv) (p : Parser) (inp : Str) (h : LooksUpList p inp) (hs : SafeAnswers env) :
    ∃ p' rs, Parser.parse env inp p = (p', .ok rs)
      ∧ (∀ r ∈ rs, ∃ e ∈ items p inp, ∃ u q l x, Question p e u q ∧ answerTo env p u q = .list l ∧ x ∈ l ∧ FromAnswer u q x r)
      ∧ (p'.getErrorCount = p.getErrorCount →
          ∀ e ∈ items p inp, ∃ u q l, Question p e u q ∧ answerTo env p u q = .list l ∧ badAnswers l = 0) := by
  obtain ⟨m, c, ha⟩ := C147_total env p (items p inp)
  obtain ⟨p', rs, h1, h2, _, h3, _⟩ := C147_list env p inp m c h hs ha
  refine ⟨p', rs, h1, ?_, fun h0 => answered_none ha (by omega)⟩
  intro r hr
  obtain ⟨x, hx, hr⟩ := each_right h2 r hr
  obtain ⟨e, he, l, g1, g2, g3, _⟩ := answered_mem ha x hx
  exact ⟨e, he, _, _, l, x.2, g1, g2, g3, hr⟩

/-- C147: nothing but the questions of the items matters: with another name service which answers these alike, the answers are the same. -/
theorem C147_questions (env env' : ParseEnv) (p : Parser) (es : List Str) (m : List ((Str × Str) × AddrInfo)) (c : Nat)
    (hsame : ∀ e ∈ es, ∀ u q, Question p e u q → answerTo env p u q = answerTo env' p u q) (h : Answered env p es m c) :
    Answered env' p es m c := by
  induction h with
  | nil => exact .nil
  | found hq hl _ ih => exact .found hq ((hsame _ List.mem_cons_self _ _ hq).symm.trans hl) (ih fun e he => hsame e (List.mem_cons_of_mem _ he))
  | unknown hq hl _ ih => exact .unknown hq ((hsame _ List.mem_cons_self _ _ hq).symm.trans hl) (ih fun e he => hsame e (List.mem_cons_of_mem _ he))
  | refused hq _ ih => exact .refused hq (ih fun e he => hsame e (List.mem_cons_of_mem _ he))

/-! ### A list -/

/-- Names between commas. -/
def hostListParser : Parser := ParserOp.runAll [(sampleEnv, .setAllow 2 true), (sampleEnv, .setProtocol 6)] Parser.create

theorem hostListParser_looksUp (inp : Str) : LooksUpList hostListParser inp :=
  ⟨by decide, by decide, .inl (by decide), by unfold ListMode; decide, by unfold NoComments; decide, by unfold Unsorted; decide⟩

theorem hostsEnv_safe : SafeAnswers hostsEnv := by
  intro node service protocol l hp hl
  have hl : (if node = "gate".toList then
      GaiAnswer.list (spread protocol [.inet sizeofIn 0 { family := AF_INET, port := 0x5000, addr := #v[10, 0, 0, 1], zero := Vector.replicate 8 0 }])
    else .error (-2) 0) = .list l := hl
  split at hl
  · obtain rfl := GaiAnswer.list.inj hl
    intro x hx
    rcases hp with rfl | rfl | rfl
    · rcases (by simpa [spread, retag] using hx : x = _ ∨ x = _ ∨ x = _) with rfl | rfl | rfl <;>
        exact fun _ => ⟨rfl, by unfold KnownProtocol; decide⟩
    · obtain rfl := (by simpa [spread, retag] using hx : x = _)
      exact fun _ => ⟨rfl, by unfold KnownProtocol; decide⟩
    · obtain rfl := (by simpa [spread, retag] using hx : x = _)
      exact fun _ => ⟨rfl, by unfold KnownProtocol; decide⟩
  · cases hl

-- C147_list: a name which is not known between two which are.
example : ∃ p' rs, Parser.parse hostsEnv "gate:80, gates:80,gate:80".toList hostListParser = (p', .ok rs) ∧ rs.length = 2
    ∧ p'.getErrorCount = 1 := by
  have hq (e : Str) (u : Str) (hu : u = "gate".toList ∨ u = "gates".toList) (he : Trims e (u ++ ":80".toList)) : Question hostListParser e u "80".toList := by
    rcases hu with rfl | rfl
    · exact ⟨_, he, .port (u := "gate".toList) (by decide) (by decide) (by decide) (by decide) (.inl (.inl (by decide))), .inl (by decide)⟩
    · exact ⟨_, he, .port (u := "gates".toList) (by decide) (by decide) (by decide) (by decide) (.inl (.inl (by decide))), .inl (by decide)⟩
  have hi : items hostListParser "gate:80, gates:80,gate:80".toList = ["gate:80".toList, " gates:80".toList, "gate:80".toList] := by decide +kernel
  have hg : answerTo hostsEnv hostListParser "gate".toList "80".toList
      = .list (spread 6 [.inet sizeofIn 0 { family := AF_INET, port := 0x5000, addr := #v[10, 0, 0, 1], zero := Vector.replicate 8 0 }]) := by decide +kernel
  have ha : Answered hostsEnv hostListParser ["gate:80".toList, " gates:80".toList, "gate:80".toList] _ _ :=
    .found (hq "gate:80".toList _ (.inl rfl) (trims_self (by decide) (by decide))) hg
      (.unknown (n := -2) (k := 0) (hq " gates:80".toList _ (.inr rfl) ⟨" ".toList, [], rfl, by decide, by decide, by decide, by decide⟩) (by decide +kernel)
        (.found (hq "gate:80".toList _ (.inl rfl) (trims_self (by decide) (by decide))) hg .nil))
  rw [← hi] at ha
  obtain ⟨p', rs, h1, h2, _, h3, _⟩ := C147_list hostsEnv hostListParser _ _ _ (hostListParser_looksUp _) hostsEnv_safe ha
  refine ⟨p', rs, h1, ?_, h3⟩
  cases h2 with
  | cons _ h2 => cases h2 with
    | cons _ h2 => cases h2; rfl

end Verif
