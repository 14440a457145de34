import Verif.Props.AnswerOrder
import Verif.Props.StringToAddr

/-! C161: the order in which the name service gives its answers, for every text (addr_parser.cpp:1817-1884 and 2314-2390). Where C159 is about
files of names and of networks, here the text is any: with errors, with comments, with ports, with masks. -/

namespace Verif

open Spec

/-! ### Lemmas -/

namespace Parser

/-- Two computations which give related results with the same number of errors. -/
def Paired {α : Type} (c : Config) (m1 m2 : PM α) (R : α → α → Prop) : Prop :=
  ∃ e1 e2 r1 r2, Logs c m1 e1 (.ok r1) ∧ Logs c m2 e2 (.ok r2) ∧ e1.length = e2.length ∧ R r1 r2

theorem paired_pure {α : Type} {c : Config} {R : α → α → Prop} {a b : α} (h : R a b) : Paired c (Pure.pure a) (Pure.pure b) R :=
  ⟨[], [], a, b, logs_pure c a, logs_pure c b, rfl, h⟩

theorem paired_bind {α β : Type} {c : Config} {R : α → α → Prop} {S : β → β → Prop} {m1 m2 : PM α} {f1 f2 : α → PM β} (h : Paired c m1 m2 R)
    (hf : ∀ a b, R a b → Paired c (f1 a) (f2 b) S) : Paired c (m1 >>= f1) (m2 >>= f2) S := by
  obtain ⟨e1, e2, a, b, h1, h2, h3, h4⟩ := h
  obtain ⟨e1', e2', r1, r2, k1, k2, k3, k4⟩ := hf a b h4
  exact ⟨e1 ++ e1', e2 ++ e2', r1, r2, logs_bind h1 k1, logs_bind h2 k2, by rw [List.length_append, List.length_append, h3, k3], k4⟩

theorem paired_emit {α : Type} {c : Config} {R : α → α → Prop} {a b : α} (m1 m2 : Str) (h : R a b) :
    Paired c (emitError m1 >>= fun _ => Pure.pure a) (emitError m2 >>= fun _ => Pure.pure b) R :=
  paired_bind (R := fun _ _ => True) ⟨[m1], [m2], (), (), logs_emit c m1, logs_emit c m2, rfl, trivial⟩ fun _ _ _ => paired_pure h

theorem paired_config {β : Type} {c : Config} {S : β → β → Prop} {f1 f2 : Config → PM β} (h : Paired c (f1 c) (f2 c) S) :
    Paired c (PM.config >>= f1) (PM.config >>= f2) S := by
  obtain ⟨e1, e2, a, b, h1, h2, h3, h4⟩ := h
  exact ⟨[] ++ e1, [] ++ e2, a, b, logs_bind (logs_config c) h1, logs_bind (logs_config c) h2, h3, h4⟩

theorem logs_safe {α : Type} {c : Config} {m : PM α} {Q : α → Prop} (h1 : Logging c m) (h2 : Safe c m Q) : ∃ e a, Logs c m e (.ok a) := by
  obtain ⟨e, r, h⟩ := h1
  cases r with
  | ok a => exact ⟨e, a, h⟩
  | throw x =>
    obtain ⟨p', a, k, _⟩ := h2 { create with config := c } rfl
    rw [h _ rfl] at k
    injection k with _ k
    cases k
  | ub w =>
    obtain ⟨p', a, k, _⟩ := h2 { create with config := c } rfl
    rw [h _ rfl] at k
    injection k with _ k
    cases k

/-- What an answer becomes. -/
def rangeOf (t : Str) (d : Bool) : AddrInfo → Option Range
  | .inet len protocol sa => if len ≠ sizeofIn then none else
    match makeRange (Addr.ofIn sa) t protocol d with
    | .ok r => some r
    | _ => none
  | .inet6 len protocol sa => if len ≠ sizeofIn6 then none else
    match makeRange (Addr.ofIn6 sa) t protocol d with
    | .ok r => some r
    | _ => none
  | .other _ => none

theorem logs_addrinfoLoop (c : Config) (t : Str) (d : Bool) (l : List AddrInfo) (hl : ∀ x ∈ l, SafeAnswer x) (first : Bool) (result : List Range) :
    ∃ errs, Logs c (addrinfoLoop t d l first result) errs (.ok (result ++ l.filterMap (rangeOf t d)))
      ∧ errs.length = (l.filter wrongSize).length + (if first && l.any noAddressFamily then 1 else 0) := by
  induction l generalizing first result with
  | nil => exact ⟨[], by rw [List.filterMap_nil, List.append_nil]; exact logs_pure c _, by simp⟩
  | cons x l ih =>
    have ih' := ih fun y hy => hl y (List.mem_cons_of_mem _ hy)
    have hx := hl x List.mem_cons_self
    cases x with
    | inet len protocol sa =>
      rw [addrinfoLoop]
      by_cases e : len = sizeofIn
      · obtain ⟨hf, hp⟩ := hx e
        obtain ⟨a, ha, has⟩ := ofIn_safe hf
        obtain ⟨r, hr, _⟩ := makeRange_safe (hostname := t) (d := d) has hp
        obtain ⟨errs, h1, h2⟩ := ih' first (result ++ [r])
        have hg : rangeOf t d (.inet len protocol sa) = some r := by
          simp only [rangeOf, if_neg (fun h : len ≠ sizeofIn => h e), ha, hr]
        rw [if_neg (fun h : len ≠ sizeofIn => h e), ha, hr, List.filterMap_cons_some hg]
        refine ⟨[] ++ errs, logs_bind (logs_lift c _) (by simpa using h1), ?_⟩
        rw [List.nil_append, h2]
        simp [wrongSize, noAddressFamily, e]
      · obtain ⟨errs, h1, h2⟩ := ih' first result
        have hg : rangeOf t d (.inet len protocol sa) = none := by simp only [rangeOf, if_pos e]
        have hw : wrongSize (.inet len protocol sa) = true := by simp [wrongSize, e]
        rw [if_pos e, List.filterMap_cons_none hg, List.filter_cons_of_pos hw, List.any_cons, show noAddressFamily (.inet len protocol sa) = false from rfl,
          Bool.false_or]
        refine ⟨_ ++ errs, logs_bind (logs_emit c _) h1, ?_⟩
        rw [List.length_append, h2, List.length_cons, List.length_cons, List.length_nil]
        omega
    | inet6 len protocol sa =>
      rw [addrinfoLoop]
      by_cases e : len = sizeofIn6
      · obtain ⟨hf, hp⟩ := hx e
        obtain ⟨a, ha, has⟩ := ofIn6_safe hf
        obtain ⟨r, hr, _⟩ := makeRange_safe (hostname := t) (d := d) has hp
        obtain ⟨errs, h1, h2⟩ := ih' first (result ++ [r])
        have hg : rangeOf t d (.inet6 len protocol sa) = some r := by
          simp only [rangeOf, if_neg (fun h : len ≠ sizeofIn6 => h e), ha, hr]
        rw [if_neg (fun h : len ≠ sizeofIn6 => h e), ha, hr, List.filterMap_cons_some hg]
        refine ⟨[] ++ errs, logs_bind (logs_lift c _) (by simpa using h1), ?_⟩
        rw [List.nil_append, h2]
        simp [wrongSize, noAddressFamily, e]
      · obtain ⟨errs, h1, h2⟩ := ih' first result
        have hg : rangeOf t d (.inet6 len protocol sa) = none := by simp only [rangeOf, if_pos e]
        have hw : wrongSize (.inet6 len protocol sa) = true := by simp [wrongSize, e]
        rw [if_pos e, List.filterMap_cons_none hg, List.filter_cons_of_pos hw, List.any_cons, show noAddressFamily (.inet6 len protocol sa) = false from rfl,
          Bool.false_or]
        refine ⟨_ ++ errs, logs_bind (logs_emit c _) h1, ?_⟩
        rw [List.length_append, h2, List.length_cons, List.length_cons, List.length_nil]
        omega
    | other family =>
      rw [addrinfoLoop, List.filterMap_cons_none (rfl : rangeOf t d (.other family) = none)]
      obtain ⟨errs, h1, h2⟩ := ih' false result
      cases first with
      | true =>
        rw [if_pos rfl]
        refine ⟨_ ++ errs, logs_bind (logs_emit c _) h1, ?_⟩
        rw [List.length_append, h2]
        simp [wrongSize, noAddressFamily]
        omega
      | false =>
        rw [if_neg (by decide)]
        refine ⟨errs, h1, ?_⟩
        rw [h2]
        simp [wrongSize, noAddressFamily]

theorem paired_addrinfoLoop (c : Config) (t : Str) (d : Bool) {l l' : List AddrInfo} (hp : l.Perm l') (hl : ∀ x ∈ l, SafeAnswer x) :
    Paired c (addrinfoLoop t d l true []) (addrinfoLoop t d l' true []) List.Perm := by
  obtain ⟨e1, h1, k1⟩ := logs_addrinfoLoop c t d l hl true []
  obtain ⟨e2, h2, k2⟩ := logs_addrinfoLoop c t d l' (fun x hx => hl x (hp.mem_iff.2 hx)) true []
  refine ⟨e1, e2, _, _, h1, h2, ?_, by rw [List.nil_append, List.nil_append]; exact hp.filterMap _⟩
  have : l.any noAddressFamily = l'.any noAddressFamily := by
    rw [Bool.eq_iff_iff, List.any_eq_true, List.any_eq_true]
    exact ⟨fun ⟨x, a, b⟩ => ⟨x, hp.mem_iff.1 a, b⟩, fun ⟨x, a, b⟩ => ⟨x, hp.mem_iff.2 a, b⟩⟩
  rw [k1, k2, (hp.filter wrongSize).length_eq, this]

section
variable {env1 env2 : ParseEnv} {c : Config} (hs : SafeAnswers env1) (he : EachAnswer Turned env1 env2) (hlook : c.flags .addressLookup = true)
include hs he hlook

theorem paired_parseAddressPort (address port : Str) (v6 : Bool) :
    Paired c (parseAddressPort env1 address port [] v6) (parseAddressPort env2 address port [] v6) List.Perm := by
  rw [parseAddressPort, parseAddressPort]
  refine paired_config ?_
  dsimp only
  split
  · exact paired_emit _ _ (.refl _)
  split
  · exact paired_emit _ _ (.refl _)
  rw [lookupAddress, lookupAddress]
  refine paired_config ?_
  generalize (if address = [] then
          if v6 = true then (if c.defaultAddress6 = [] then "::".toList else c.defaultAddress6)
          else (if c.defaultAddress4 = [] then "0.0.0.0".toList else c.defaultAddress4)
        else address) = t
  generalize (if (!decide (port ≠ []) && decide (c.defaultPort ≠ -1)) = true then intStr c.defaultPort else port) = q
  have ht := he (cstr t) (if q = [] then ['0'] else cstr q) (hintProtocol c.protocol)
  cases h1 : env1.getaddrinfo (cstr t) (if q = [] then ['0'] else cstr q) false (hintProtocol c.protocol) with
  | error r e =>
    rw [h1] at ht
    cases h2 : env2.getaddrinfo (cstr t) (if q = [] then ['0'] else cstr q) false (hintProtocol c.protocol) with
    | error r' e' => exact paired_emit _ _ (.refl _)
    | list l' => rw [h2] at ht; exact ht.elim
  | list l =>
    rw [h1] at ht
    cases h2 : env2.getaddrinfo (cstr t) (if q = [] then ['0'] else cstr q) false (hintProtocol c.protocol) with
    | error r' e' => rw [h2] at ht; exact ht.elim
    | list l' =>
      rw [h2] at ht
      exact paired_addrinfoLoop c t _ ht (hs _ _ _ l (hint_cases _) h1)

variable (hrange : c.flags .addressRange = false)
include hrange

theorem paired_parseAddressRangePort (addresses port : Str) (v6 : Bool) :
    Paired c (parseAddressRangePort env1 addresses port [] v6) (parseAddressRangePort env2 addresses port [] v6) List.Perm := by
  rw [parseAddressRangePort, parseAddressRangePort]
  refine paired_config ?_
  rw [if_neg (by simp [hrange])]
  exact paired_parseAddressPort hs he hlook _ _ _

theorem paired_parseAddress4 (inp : Str) : Paired c (parseAddress4 env1 inp []) (parseAddress4 env2 inp []) List.Perm := by
  rw [parseAddress4, parseAddress4]
  refine paired_config ?_
  split
  · exact paired_parseAddressRangePort hs he hlook hrange _ _ _
  · split
    · exact paired_parseAddressRangePort hs he hlook hrange _ _ _
    · exact paired_emit _ _ (.refl _)

theorem paired_parseAddress6 (inp : Str) :
    Paired c (parseAddress6 env1 inp (inp.count ':') []) (parseAddress6 env2 inp (inp.count ':') []) List.Perm := by
  rw [parseAddress6, parseAddress6]
  refine paired_config ?_
  split
  · split
    · exact paired_emit _ _ (.refl _)
    · exact paired_parseAddressRangePort hs he hlook hrange _ _ _
    · split
      · exact paired_emit _ _ (.refl _)
      · split
        · exact paired_emit _ _ (.refl _)
        · exact paired_parseAddressRangePort hs he hlook hrange _ _ _
  · split
    · rename_i h
      split
      · rename_i hn
        exact absurd hn (splitFirst_of_count h)
      · exact paired_parseAddressRangePort hs he hlook hrange _ _ _
    · exact paired_parseAddressRangePort hs he hlook hrange _ _ _

theorem paired_parseAddress (inp mask : Str) :
    Paired c (parseAddress env1 inp mask []) (parseAddress env2 inp mask []) fun x y => x.1 = y.1 ∧ x.2.Perm y.2 := by
  rw [parseAddress, parseAddress]
  refine paired_config ?_
  have h4 : Paired c (do return (true, ← parseAddress4 env1 inp []) : PM (Bool × List Range)) (do return (true, ← parseAddress4 env2 inp []))
      fun x y => x.1 = y.1 ∧ x.2.Perm y.2 :=
    paired_bind (paired_parseAddress4 hs he hlook hrange inp) fun _ _ h => paired_pure ⟨rfl, h⟩
  have h6 : Paired c (do return (false, ← parseAddress6 env1 inp (inp.count ':') []) : PM (Bool × List Range))
      (do return (false, ← parseAddress6 env2 inp (inp.count ':') [])) fun x y => x.1 = y.1 ∧ x.2.Perm y.2 :=
    paired_bind (paired_parseAddress6 hs he hlook hrange inp) fun _ _ h => paired_pure ⟨rfl, h⟩
  dsimp only
  repeat' split
  all_goals first | exact h4 | exact h6

end

theorem logs_maskLoop (env : ParseEnv) {c : Config} (hm : c.flags .addressMask = false) (mask : Str) (v4 : Bool) :
    ∃ (E : Range → List Str) (F : Range → Range), ∀ l, Logs c (maskLoop env mask v4 l) (l.flatMap E) (.ok (l.map F)) := by
  have h (x : Range) : ∃ y : List Str × Addr, Logs c (parseMask env (chooseMask c mask v4) x.lo (v4 && x.lo.isIpv4)) y.1 (.ok y.2) := by
    obtain ⟨e, a, h⟩ := logs_safe (logging_parseMask env c (chooseMask c mask v4) x.lo (v4 && x.lo.isIpv4))
      (safe_parseMask (fun h => by rw [hm] at h; cases h) _ _ _)
    exact ⟨(e, a), h⟩
  obtain ⟨f, hf⟩ := Classical.axiomOfChoice h
  refine ⟨fun x => (f x).1, fun x => { x with lo := (f x).2 }, fun l => ?_⟩
  induction l with
  | nil => exact logs_pure c _
  | cons x l ih =>
    rw [maskLoop, List.flatMap_cons, List.map_cons]
    have := logs_bind (logs_config c) (f := fun c => parseMask env (chooseMask c mask v4) x.lo (v4 && x.lo.isIpv4) >>= fun a =>
      maskLoop env mask v4 l >>= fun l => (Pure.pure ({ x with lo := a } :: l) : PM (List Range)))
      (logs_bind (hf x) (logs_bind ih (logs_pure c _)))
    simpa using this

theorem paired_maskLoop (env1 env2 : ParseEnv) {c : Config} (hm : c.flags .addressMask = false) (mask : Str) (v4 : Bool) {l l' : List Range}
    (hp : l.Perm l') : Paired c (maskLoop env1 mask v4 l) (maskLoop env2 mask v4 l') List.Perm := by
  obtain ⟨E, F, h⟩ := logs_maskLoop env1 hm mask v4
  refine ⟨_, _, _, _, h l, fun p hc => ?_, (hp.flatMap_right E).length_eq, hp.map F⟩
  rw [← same_maskLoop (env1 := env1) hm mask v4 l' p hc]
  exact h l' p hc

section
variable {env1 env2 : ParseEnv} {c : Config} (hs : SafeAnswers env1) (he : EachAnswer Turned env1 env2) (hlook : c.flags .addressLookup = true)
  (hrange : c.flags .addressRange = false) (hm : c.flags .mask = true → c.flags .addressMask = false)
include hs he hlook hrange hm

theorem paired_parseCidr (inp : Str) : Paired c (parseCidr env1 inp []) (parseCidr env2 inp []) List.Perm := by
  cases h : c.flags .mask with
  | false =>
    obtain ⟨e1, e2, r1, r2, h1, h2, h3, _, h4⟩ := paired_parseAddress hs he hlook hrange (trimString inp) []
    refine ⟨e1, e2, r1.2, r2.2, fun p hp => ?_, fun p hp => ?_, h3, h4⟩
    · rw [parseCidr_nomask _ _ _ _ (by rw [hp]; exact h), h1 p hp]
    · rw [parseCidr_nomask _ _ _ _ (by rw [hp]; exact h), h2 p hp]
  | true =>
    obtain ⟨e1, e2, r1, r2, h1, h2, h3, h5, h4⟩ := paired_parseAddress hs he hlook hrange
      ((splitFirst '/' (trimString inp)).getD (trimString inp, [])).1 ((splitFirst '/' (trimString inp)).getD (trimString inp, [])).2
    obtain ⟨f1, f2, s1, s2, k1, k2, k3, k4⟩ := paired_maskLoop env1 env2 (hm h) ((splitFirst '/' (trimString inp)).getD (trimString inp, [])).2 r1.1 h4
    have hcnt (e f : List Str) (p : Parser) : p.errorCount = (emitAll f (emitAll e p)).errorCount ↔ e.length + f.length = 0 := by
      simp only [emitAll]
      omega
    refine ⟨e1 ++ f1, e2 ++ f2, if e1.length + f1.length = 0 then s1 else [], if e2.length + f2.length = 0 then s2 else [],
      fun p hp => ?_, fun p hp => ?_, by rw [List.length_append, List.length_append, h3, k3], ?_⟩
    · rw [parseCidr_mask _ _ _ _ (by rw [hp]; exact h)]
      dsimp only
      rw [h1 p hp]
      dsimp only
      rw [k1 _ (by simpa using hp), emitAll_append]
      simp only [hcnt, List.nil_append]
    · rw [parseCidr_mask _ _ _ _ (by rw [hp]; exact h)]
      dsimp only
      rw [h2 p hp]
      dsimp only
      rw [← h5, k2 _ (by simpa using hp), emitAll_append]
      simp only [hcnt, List.nil_append]
    · rw [h3, k3]
      split
      · exact k4
      · exact .refl _

theorem paired_seqEntries (es : List Str) : Paired c (seqEntries env1 es) (seqEntries env2 es) List.Perm := by
  induction es with
  | nil => exact paired_pure (.refl _)
  | cons e es ih =>
    rw [seqEntries, seqEntries]
    exact paired_bind (paired_parseCidr hs he hlook hrange hm e) fun _ _ h => paired_bind ih fun _ _ h' => paired_pure (h.append h')

theorem paired_parseUnsorted (inp : Str) : Paired c (parseUnsorted env1 inp) (parseUnsorted env2 inp) List.Perm := by
  rw [parseUnsorted, parseUnsorted]
  refine paired_config ?_
  split
  · rw [parseSingle, parseSingle]
    refine paired_config ?_
    dsimp only
    split
    · rw [substr, if_neg]
      · exact paired_bind (R := Eq) ⟨[], [], _, _, logs_lift c _, logs_lift c _, rfl, rfl⟩ fun a b h => by
          rw [h]
          exact paired_parseCidr hs he hlook hrange hm b
      · have := takeWhile_le isSpace inp
        rw [singleStart]
        omega
    · exact paired_parseCidr hs he hlook hrange hm inp
  · obtain ⟨e1, e2, r1, r2, h1, h2, h3, h4⟩ := paired_seqEntries hs he hlook hrange hm (entriesOf c inp.length inp)
    refine ⟨e1 ++ [], e2 ++ [], [] ++ r1, [] ++ r2, fun p hp => ?_, fun p hp => ?_, by rw [List.append_nil, List.append_nil, h3], h4⟩
    · rw [parseList_eq, hp]
      exact logs_bind h1 (logs_pure c _) p hp
    · rw [parseList_eq, hp]
      exact logs_bind h2 (logs_pure c _) p hp

end

end Parser

theorem picks_perm {proto : Str} {l l' : List Range} (h : l.Perm l') {a : Addr} (hp : Picks proto l a) : Picks proto l' a := by
  rcases hp with ⟨r, rfl, rfl⟩ | ⟨h1, h2, before, r, after, rfl, rfl, h3, h4⟩
  · exact .inl ⟨r, List.perm_singleton.1 h.symm, rfl⟩
  · have hr : r ∈ l' := h.mem_iff.1 (by simp)
    obtain ⟨b', a', rfl⟩ := List.append_of_mem hr
    refine .inr ⟨h1, by rw [← h.length_eq]; exact h2, b', r, a', rfl, rfl, h3, fun s hs => h4 s ?_⟩
    have h' : (before ++ after).Perm (b' ++ a') :=
      List.Perm.cons_inv (List.perm_middle.symm.trans (h.trans List.perm_middle))
    exact h'.mem_iff.2 hs

/-! ### C161 -/

/-- C161: a parser which looks names up, without ranges of addresses and masks written as addresses, reads any text with the same number of
errors and the same ranges, up to their order, in whatever order the name service gives its answers. -/
theorem C161_parse (env1 env2 : ParseEnv) (p : Parser) (inp : Str) (hl : p.config.flags .addressLookup = true)
    (hr : p.config.flags .addressRange = false) (hm : p.config.flags .mask = true → p.config.flags .addressMask = false) (hu : Unsorted p)
    (hs : SafeAnswers env1) (he : EachAnswer Turned env1 env2) :
    ∃ l1 l2, (Parser.parse env1 inp p).2 = .ok l1 ∧ (Parser.parse env2 inp p).2 = .ok l2 ∧ l1.Perm l2
      ∧ (Parser.parse env1 inp p).1.errorCount = (Parser.parse env2 inp p).1.errorCount := by
  obtain ⟨e1, e2, r1, r2, h1, h2, h3, h4⟩ := Parser.paired_parseUnsorted hs he hl hr hm inp
  have k1 : Parser.parse env1 inp p = (Parser.emitAll e1 p, .ok r1) := by
    rw [parse_eq, PM.bind_of_ok (h1 p rfl), sortResult_unsorted _ hu]
    rfl
  have k2 : Parser.parse env2 inp p = (Parser.emitAll e2 p, .ok r2) := by
    rw [parse_eq, PM.bind_of_ok (h2 p rfl), sortResult_unsorted _ hu]
    rfl
  rw [k1, k2]
  exact ⟨r1, r2, rfl, rfl, h4, by simp only [Parser.emitAll, h3]⟩

/-- C161: such a list of ranges therefore lets in the same addresses. -/
theorem C161_matches (env1 env2 : ParseEnv) (p : Parser) (inp : Str) (hl : p.config.flags .addressLookup = true)
    (hr : p.config.flags .addressRange = false) (hm : p.config.flags .mask = true → p.config.flags .addressMask = false) (hu : Unsorted p)
    (hs : SafeAnswers env1) (he : EachAnswer Turned env1 env2) :
    ∃ l1 l2, (Parser.parse env1 inp p).2 = .ok l1 ∧ (Parser.parse env2 inp p).2 = .ok l2
      ∧ ∀ a : Addr, addressMatchRanges l1 a = addressMatchRanges l2 a := by
  obtain ⟨l1, l2, h1, h2, h3, _⟩ := C161_parse env1 env2 p inp hl hr hm hu hs he
  exact ⟨l1, l2, h1, h2, fun a => C35_order_irrelevant l1 l2 a fun _ => h3.mem_iff⟩

/-- C161: `string_to_addr()` gives the same address, or throws, in whatever order the name service gives its answers. -/
theorem C161_string_to_addr (env1 env2 : ParseEnv) (hs : SafeAnswers env1) (he : EachAnswer Turned env1 env2)
    (hn : env1.getprotobyname = env2.getprotobyname) (a d : Str) (port : Int) (proto : Str) (mask : Bool) :
    Parser.stringToAddr env1 a d port proto mask = Parser.stringToAddr env2 a d port proto mask := by
  have hs2 : SafeAnswers env2 := safe_members (turned_members he) hs
  have hown : ownParser env1 d port proto mask = ownParser env2 d port proto mask := by
    unfold ownParser
    by_cases e : proto = []
    · rw [if_pos e]
      rfl
    · rw [if_neg e]
      simp only [ParserOp.runAll, ParserOp.run, Parser.setProtocolStr, hn]
  have key (r : Addr) : Parser.stringToAddr env1 a d port proto mask = .ok r ↔ Parser.stringToAddr env2 a d port proto mask = .ok r := by
    rw [C68_own_parser env1 hs, C68_own_parser env2 hs2, ← hown]
    have hacc : Acceptable env1 d port proto ↔ Acceptable env2 d port proto :=
      ⟨fun h => ⟨h.address, h.port, hn ▸ h.protocol⟩, fun h => ⟨h.address, h.port, hn ▸ h.protocol⟩⟩
    rw [hacc]
    refine and_congr_right fun ha => ?_
    have hc : OwnConfig env1 port proto mask (ownParser env1 d port proto mask).config := by
      rcases stringToAddr_cases (env := env1) (d := d) (port := port) (proto := proto) (mask := mask) a with ⟨h, _⟩ | ⟨_, _, h⟩
      · exact absurd (hacc.2 ha) h
      · exact h
    obtain ⟨l1, l2, h1, h2, h3, _⟩ := C161_parse env1 env2 (ownParser env1 d port proto mask) a (by rw [hc.flags]; rfl) (by rw [hc.flags]; rfl)
      (fun _ => by rw [hc.flags]; rfl) (by unfold Unsorted; rw [hc.sort]; decide) hs he
    rw [h1, h2]
    constructor
    · rintro ⟨l, h, hp⟩
      cases h
      exact ⟨l2, rfl, picks_perm h3 hp⟩
    · rintro ⟨l, h, hp⟩
      cases h
      exact ⟨l1, rfl, picks_perm h3.symm hp⟩
  rcases C68_outcome env1 hs a d port proto mask with ⟨r, h⟩ | h
  · rw [h, (key r).1 h]
  · rcases C68_outcome env2 hs2 a d port proto mask with ⟨r, h'⟩ | h'
    · rw [(key r).2 h'] at h
      cases h
    · rw [h, h']

/-! ### Examples -/

/-- A name service which gives the address of a host for TCP and for UDP, in one order or in the other. -/
def twiceEnv (back : Bool) : ParseEnv :=
  { sampleEnv with
    getaddrinfo := fun node _ _ _ =>
      if node = "host".toList then
        .list (if back then [.inet sizeofIn 17 { family := AF_INET, port := 0, addr := #v[10, 0, 0, 7], zero := Vector.replicate 8 0 },
            .inet sizeofIn 6 { family := AF_INET, port := 0, addr := #v[10, 0, 0, 7], zero := Vector.replicate 8 0 }]
          else [.inet sizeofIn 6 { family := AF_INET, port := 0, addr := #v[10, 0, 0, 7], zero := Vector.replicate 8 0 },
            .inet sizeofIn 17 { family := AF_INET, port := 0, addr := #v[10, 0, 0, 7], zero := Vector.replicate 8 0 }])
      else .error (-2) 0 }

theorem twiceEnv_safe : SafeAnswers (twiceEnv false) := by
  intro node service protocol l _ hl x hx
  by_cases hg : node = "host".toList
  · have h1 : (twiceEnv false).getaddrinfo node service false protocol = .list _ := if_pos hg
    rw [h1] at hl
    cases hl
    rcases (by simpa using hx : x = _ ∨ x = _) with rfl | rfl <;> exact fun _ => ⟨rfl, by unfold KnownProtocol; decide⟩
  · have h1 : (twiceEnv false).getaddrinfo node service false protocol = .error (-2) 0 := if_neg hg
    rw [h1] at hl
    cases hl

theorem twiceEnv_turned : EachAnswer Turned (twiceEnv false) (twiceEnv true) := by
  intro node service protocol
  by_cases hg : node = "host".toList
  · have h1 : (twiceEnv false).getaddrinfo node service false protocol = .list _ := if_pos hg
    have h2 : (twiceEnv true).getaddrinfo node service false protocol = .list _ := if_pos hg
    rw [h1, h2]
    exact List.Perm.swap ..
  · have h1 : (twiceEnv false).getaddrinfo node service false protocol = .error (-2) 0 := if_neg hg
    have h2 : (twiceEnv true).getaddrinfo node service false protocol = .error (-2) 0 := if_neg hg
    rw [h1, h2]
    trivial

/-- C161_parse, C161_matches: a text with an error and a host. -/
example : ∃ l1 l2, (Parser.parse (twiceEnv false) "nowhere,host".toList hostListParser).2 = .ok l1
    ∧ (Parser.parse (twiceEnv true) "nowhere,host".toList hostListParser).2 = .ok l2 ∧ l1.Perm l2
    ∧ (Parser.parse (twiceEnv false) "nowhere,host".toList hostListParser).1.errorCount
      = (Parser.parse (twiceEnv true) "nowhere,host".toList hostListParser).1.errorCount :=
  C161_parse _ _ _ _ (by decide) (by decide) (by decide) (by unfold Unsorted; decide) twiceEnv_safe twiceEnv_turned

example : (match (Parser.parse (twiceEnv false) "nowhere,host".toList hostListParser),
      (Parser.parse (twiceEnv true) "nowhere,host".toList hostListParser) with
    | (p, .ok l1), (q, .ok l2) => decide (l1.map (·.lo.protocol) = [6, 17] ∧ l2.map (·.lo.protocol) = [17, 6] ∧ p.errorCount = 1 ∧ q.errorCount = 1)
    | _, _ => false) = true := by decide +kernel

/-- C161_string_to_addr: the TCP address is taken, be it the first or the last. -/
example : Parser.stringToAddr (twiceEnv false) "host:80".toList [] (-1) [] false = Parser.stringToAddr (twiceEnv true) "host:80".toList [] (-1) [] false
    ∧ (match Parser.stringToAddr (twiceEnv true) "host:80".toList [] (-1) [] false with
      | .ok a => ip a.getIpv6.addr = 0xFFFF0A000007 && a.protocol = 6
      | _ => false) = true :=
  ⟨C161_string_to_addr _ _ twiceEnv_safe twiceEnv_turned rfl _ _ _ _ _, by decide +kernel⟩

/-- C161: ranges of addresses are left out with reason. A bound takes the protocol of the first answer, so that the same range is a TCP one or a
UDP one depending on the order. -/
theorem C161_ranges_differ : ∃ (env1 env2 : ParseEnv) (p : Parser) (inp : Str) (r1 r2 : Range), SafeAnswers env1 ∧ EachAnswer Turned env1 env2
    ∧ p.config.flags .addressRange = true ∧ (Parser.parse env1 inp p).2 = .ok [r1] ∧ (Parser.parse env2 inp p).2 = .ok [r2]
    ∧ r1.lo.protocol = 6 ∧ r2.lo.protocol = 17 := by
  have h : (match (Parser.parse (twiceEnv false) "host-".toList (Parser.setAllow 6 true Parser.create).1).2,
        (Parser.parse (twiceEnv true) "host-".toList (Parser.setAllow 6 true Parser.create).1).2 with
      | .ok [r1], .ok [r2] => decide (r1.lo.protocol = 6 ∧ r2.lo.protocol = 17)
      | _, _ => false) = true := by decide +kernel
  split at h
  · rename_i r1 r2 h1 h2
    exact ⟨_, _, _, _, r1, r2, twiceEnv_safe, twiceEnv_turned, by decide, h1, h2, (of_decide_eq_true h).1, (of_decide_eq_true h).2⟩
  · cases h

end Verif
