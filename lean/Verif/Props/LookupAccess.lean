import Verif.Props.LookupList
import Verif.Props.AccessMerge
import Verif.SpecBounds

/-! C148: access lists of host names (addr_parser.cpp:1037-1201, 1780-1885, addr_range.cpp:1039-1051). Whatever the order asked for, merging
included, the list which is read matches exactly the addresses which the name service gave for its entries. -/

namespace Verif

open Spec

/-- A parser of lists with lookups, without masks, ranges and comments; it may sort and merge. -/
structure NamesList (p : Parser) (inp : Str) : Prop where
  lookup : p.config.flags .addressLookup = true
  mask : p.config.flags .mask = false
  range : p.config.flags .addressRange = false ∨ '-' ∉ inp
  list : ListMode p
  comments : NoComments p

/-- The name service gave this address for the entry. -/
def GivenFor (env : ParseEnv) (p : Parser) (e : Str) (n : Nat) : Prop :=
  ∃ u q l x, Question p e u q ∧ answerTo env p u q = .list l ∧ x ∈ l ∧ usable x = true ∧ answerNumber x = n

/-! ### Lemmas -/

section
variable {env : ParseEnv} {p : Parser}

theorem ports_unsorted : PortsAllowed (unsortedOf p) ↔ PortsAllowed p := by rw [PortsAllowed, PortsAllowed, unsortedOf_config]

theorem asks_sameConfig {p p' : Parser} (hf : p'.config.flags = p.config.flags) (h4 : p'.config.defaultAddress4 = p.config.defaultAddress4)
    (h6 : p'.config.defaultAddress6 = p.config.defaultAddress6) {t u q : Str} (h : Asks p t u q) : Asks p' t u q := by
  have hp : PortsAllowed p' = PortsAllowed p := by rw [PortsAllowed, PortsAllowed, hf]
  cases h with
  | name h1 h2 h3 => exact .name h1 h2 h3
  | port h1 h2 h3 h4 h5 => exact .port h1 h2 h3 h4 (by rw [hp]; exact h5)
  | six h1 h2 => exact .six h1 h2
  | bracket h1 h2 => exact .bracket h1 h2
  | bracketPort h1 h2 h3 => exact .bracketPort h1 h2 (by rw [hp]; exact h3)
  | default hr h =>
    have := Asks.default (p := p') (t := t) (q := q) (by rw [hf]; exact hr) (by rw [NoAddress, hp, h4, h6]; exact h)
    rwa [defaultText, h4, h6] at this
  | defaultPort hr hq k4 k6 =>
    have := Asks.defaultPort (p := p') (q := q) (by rw [hf]; exact hr) hq (by rw [h4]; exact k4) (by rw [h6]; exact k6)
    rwa [h6] at this

theorem question_unsorted {e u q : Str} : Question (unsortedOf p) e u q ↔ Question p e u q := by
  have hc := unsortedOf_config p
  have e1 : (unsortedOf p).config.flags = p.config.flags := by rw [hc]
  have e2 : (unsortedOf p).config.defaultAddress4 = p.config.defaultAddress4 := by rw [hc]
  have e3 : (unsortedOf p).config.defaultAddress6 = p.config.defaultAddress6 := by rw [hc]
  constructor
  · rintro ⟨t, h1, h2, h3⟩
    exact ⟨t, h1, asks_sameConfig e1.symm e2.symm e3.symm h2, by rwa [e1] at h3⟩
  · rintro ⟨t, h1, h2, h3⟩
    exact ⟨t, h1, asks_sameConfig e1 e2 e3 h2, by rwa [e1]⟩

theorem answer_unsorted (u q : Str) : answerTo env (unsortedOf p) u q = answerTo env p u q := by
  rw [answerTo, answerTo, serviceAsked, serviceAsked, unsortedOf_config]

theorem items_unsorted (inp : Str) : items (unsortedOf p) inp = items p inp := by
  have : separates (unsortedOf p) = separates p := by
    funext x
    rw [separates, separates, unsortedOf_config]
  rw [items, items, this]

theorem namesList_unsorted {inp : Str} (h : NamesList p inp) : LooksUpList (unsortedOf p) inp where
  lookup := by rw [unsortedOf_config]; exact h.lookup
  mask := by rw [unsortedOf_config]; exact h.mask
  range := by rw [unsortedOf_config]; exact h.range
  list := by rw [ListMode, unsortedOf_config]; exact h.list
  comments := by rw [NoComments, unsortedOf_config]; exact h.comments
  sort := unsorted_unsortedOf p

theorem fromAnswer_network {u q : Str} {x : AddrInfo} {r : Range} (h : FromAnswer u q x r) : IsNetwork r (answerNumber x) 128 := by
  refine ⟨h.hasFrom, h.hasTo, ?_, by decide, h.mask.trans (by decide)⟩
  have := h.holds
  cases x with
  | inet len protocol sa => rw [show r.lo.getIpv6 = _ from this]; exact Parser.ip_mapped sa.addr
  | inet6 len protocol sa => rw [show r.lo.getIpv6 = _ from this]; rfl
  | other f => exact this.elim

theorem each_networks {m : List ((Str × Str) × AddrInfo)} {rs : List Range}
    (h : Each (fun (x : (Str × Str) × AddrInfo) r => FromAnswer x.1.1 x.1.2 x.2 r) m rs) :
    List.Forall₂ (fun r q => IsNetwork r q.1 q.2) rs (m.map fun x => (answerNumber x.2, 128)) := by
  induction h with
  | nil => exact .nil
  | cons hr _ ih => exact .cons (fromAnswer_network hr) ih

/-- What one entry gives is in the result of the list. -/
theorem parseEach_mem {p : Parser} {e : Str} {re : List Range} {p1 : Parser} (he : Parser.parse env e p = (p1, .ok re)) :
    ∀ (es : List Str) (q q' : Parser) (rs : List Range), q.config = p.config → e ∈ es → parseEach env es q = (q', .ok rs) → ∀ r ∈ re, r ∈ rs
  | [], _, _, _, _, h, _, _, _ => nomatch h
  | e' :: es, q, q', rs, hq, hm, h, r, hr => by
    obtain ⟨errs, x, hlog⟩ := Parser.logging_parse env p.config e'
    rw [parseEach, hlog q hq] at h
    cases x with
    | throw _ | ub _ => cases congrArg Prod.snd h
    | ok l =>
      dsimp only at h
      generalize hy : parseEach env es (Parser.emitAll errs q) = y at h
      obtain ⟨q2, y⟩ := y
      cases y with
      | throw _ | ub _ => cases congrArg Prod.snd h
      | ok l' =>
        dsimp only at h
        obtain rfl : l ++ l' = rs := Res.ok.inj (congrArg Prod.snd h)
        rcases List.mem_cons.1 hm with rfl | hm
        · have h0 := hlog p rfl
          rw [he] at h0
          obtain rfl : re = l := Res.ok.inj (congrArg Prod.snd h0)
          exact List.mem_append_left _ hr
        · exact List.mem_append_right _ (parseEach_mem he es (Parser.emitAll errs q) q2 l' hq hm hy r hr)

theorem forall₂_mem {α β : Type} {R : α → β → Prop} {l : List α} {l' : List β} (h : List.Forall₂ R l l') :
    (∀ a ∈ l, ∃ b ∈ l', R a b) ∧ ∀ b ∈ l', ∃ a ∈ l, R a b := by
  induction h with
  | nil => exact ⟨(fun _ h => nomatch h), (fun _ h => nomatch h)⟩
  | cons hr _ ih =>
    constructor
    · intro a ha
      rcases List.mem_cons.1 ha with rfl | ha
      · exact ⟨_, List.mem_cons_self, hr⟩
      · obtain ⟨b, h1, h2⟩ := ih.1 a ha
        exact ⟨b, List.mem_cons_of_mem _ h1, h2⟩
    · intro b hb
      rcases List.mem_cons.1 hb with rfl | hb
      · exact ⟨_, List.mem_cons_self, hr⟩
      · obtain ⟨a, h1, h2⟩ := ih.2 b hb
        exact ⟨a, List.mem_cons_of_mem _ h1, h2⟩

theorem each_left {α β : Type} {R : α → β → Prop} {a : List α} {b : List β} (h : Each R a b) : ∀ x ∈ a, ∃ y ∈ b, R x y := by
  induction h with
  | nil => exact (fun _ h => nomatch h)
  | cons hr _ ih =>
    intro x hx
    rcases List.mem_cons.1 hx with rfl | hx
    · exact ⟨_, List.mem_cons_self, hr⟩
    · obtain ⟨y, h1, h2⟩ := ih x hx
      exact ⟨y, List.mem_cons_of_mem _ h1, h2⟩

/-- The list before it is sorted. -/
theorem names_read {inp : Str} (h : NamesList p inp) (hs : SafeAnswers env) :
    ∃ p' rs Q, Parser.parse env inp (unsortedOf p) = (p', .ok rs) ∧ List.Forall₂ OneNetwork rs Q ∧ (∀ q ∈ Q, q.2 = 128)
      ∧ ∀ n, (∃ q ∈ Q, n = q.1) ↔ ∃ e ∈ items p inp, GivenFor env p e n := by
  have hl := namesList_unsorted h
  obtain ⟨m, c, ha⟩ := C147_total env (unsortedOf p) (items (unsortedOf p) inp)
  obtain ⟨p', rs, h1, h2, _⟩ := C147_list env (unsortedOf p) inp m c hl hs ha
  have h3 := each_networks h2
  have h5 := (Parser.hiWhole_parseUnsorted (env := env) (c := (unsortedOf p).config) inp (unsortedOf p) rfl).2 rs (by
    rw [← parse_unsortedOf, h1])
  refine ⟨p', rs, _, h1, oneNetwork_of h3 h5, ?_, fun n => ⟨?_, ?_⟩⟩
  · intro q hq
    obtain ⟨x, _, rfl⟩ := List.mem_map.1 hq
    rfl
  · rintro ⟨q, hq, rfl⟩
    obtain ⟨x, hx, rfl⟩ := List.mem_map.1 hq
    obtain ⟨e, he, l, g1, g2, g3, g4⟩ := answered_mem ha x hx
    rw [items_unsorted] at he
    rw [answer_unsorted] at g2
    exact ⟨e, he, _, _, l, x.2, question_unsorted.1 g1, g2, g3, g4, rfl⟩
  · rintro ⟨e, he, u, q, l, x, g1, g2, g3, g4, rfl⟩
    rw [← items_unsorted] at he
    rw [← answer_unsorted] at g2
    obtain ⟨t, k1, k2, k3⟩ := question_unsorted.2 g1
    obtain ⟨p1, re, j1, j2, _⟩ := C92_found env (unsortedOf p) e t u q l (looksUp_item hl he) k1 k2 k3 g2 (answer_safe hs g2)
    obtain ⟨r, hr, j3⟩ := each_left j2 x (List.mem_filter.2 ⟨g3, g4⟩)
    have hmem := parseEach_mem j1 (items (unsortedOf p) inp) (unsortedOf p) p' rs rfl he
      (by rw [← h1, C41_entrywise env inp _ hl.list hl.comments hl.sort]; rfl) r hr
    obtain ⟨q', hq', hn⟩ := (forall₂_mem h3).1 r hmem
    exact ⟨q', hq', (fromAnswer_network j3).2.2.1.symm.trans hn.2.2.1⟩

end

/-! ### C148 -/

/-- C148: in any order, merged or not, the list which is read matches exactly the addresses given by the name service for its entries. -/
theorem C148_matches (env : ParseEnv) (p : Parser) (inp : Str) (h : NamesList p inp) (hs : SafeAnswers env) :
    ∃ l, (Parser.parse env inp p).2 = .ok l
      ∧ ∀ a : Addr, ∃ b, addressMatchRanges l a = .ok b ∧ (b = true ↔ ∃ e ∈ items p inp, GivenFor env p e (ip a.getIpv6.addr)) := by
  obtain ⟨p', rs, Q, h1, h2, h3, h4⟩ := names_read h hs
  by_cases hm : p.config.sort &&& SORT_MERGE = 0
  · obtain ⟨l, h5, h6, _⟩ := C43_sort_permutes env inp p hm rs (by rw [h1])
    refine ⟨l, h5, fun a => ?_⟩
    obtain ⟨b, j1, j2⟩ := C35_any_range l a
    refine ⟨b, j1, j2.trans (Iff.trans ?_ (h4 _))⟩
    constructor
    · rintro ⟨r, hr, hx⟩
      obtain ⟨q, hq, hn⟩ := (forall₂_mem h2).1 r (h6.mem_iff.1 hr)
      refine ⟨q, hq, ?_⟩
      have := (network_match hn.1 a).1 hx
      rw [InNetwork, h3 q hq] at this
      simpa using this
    · rintro ⟨q, hq, hx⟩
      obtain ⟨r, hr, hn⟩ := (forall₂_mem h2).2 q hq
      exact ⟨r, h6.mem_iff.2 hr, (network_match hn.1 a).2 (by rw [hx]; exact inNetwork_self _ _)⟩
  · obtain ⟨_, _, _, _, e5⟩ := parse_sort env inp p
    rw [h1] at e5
    rw [(e5 rs rfl).2]
    rcases sortResult_networks p.config.sort hm h2 with ⟨_, a, k1, _, _, b, k2, _, _, k3, _⟩ | ⟨l, h5, _, h6⟩
    · have := h3 a k1
      have := h3 b k2
      omega
    · refine ⟨l, h5, fun a => ?_⟩
      obtain ⟨b, j1, j2⟩ := C35_any_range l a
      refine ⟨b, j1, j2.trans ((h6 a).trans (Iff.trans ?_ (h4 _)))⟩
      constructor
      · rintro ⟨q, hq, hx | ⟨_, hx⟩⟩
        · exact ⟨q, hq, hx⟩
        · refine ⟨q, hq, ?_⟩
          rw [InNetwork, h3 q hq] at hx
          simpa using hx
      · rintro ⟨q, hq, hx⟩
        exact ⟨q, hq, .inl hx⟩

/-- C148: two lists with the same entries, in any order and any number of times, and read in any order, match the same addresses. -/
theorem C148_same_entries (env : ParseEnv) (p p' : Parser) (inp inp' : Str) (h : NamesList p inp) (h' : NamesList p' inp')
    (hs : SafeAnswers env) (hc : unsortedOf p = unsortedOf p') (he : ∀ e, e ∈ items p inp ↔ e ∈ items p' inp') :
    ∃ l l', (Parser.parse env inp p).2 = .ok l ∧ (Parser.parse env inp' p').2 = .ok l'
      ∧ ∀ a : Addr, addressMatchRanges l a = addressMatchRanges l' a := by
  obtain ⟨l, h1, h2⟩ := C148_matches env p inp h hs
  obtain ⟨l', h1', h2'⟩ := C148_matches env p' inp' h' hs
  refine ⟨l, l', h1, h1', fun a => ?_⟩
  obtain ⟨b, j1, j2⟩ := h2 a
  obtain ⟨b', j1', j2'⟩ := h2' a
  have hg (e : Str) (n : Nat) : GivenFor env p e n ↔ GivenFor env p' e n := by
    unfold GivenFor
    simp only [← question_unsorted (p := p), ← question_unsorted (p := p'), ← answer_unsorted (p := p), ← answer_unsorted (p := p'), hc]
  have : b = b' := by
    rw [Bool.eq_iff_iff, j2, j2']
    simp only [he, hg]
  rw [j1, j1', this]

/-! ### A merged list -/

def hostMergeParser : Parser := ParserOp.runAll [(sampleEnv, .setSortOrder SORT_MERGE)] hostListParser

theorem hostMergeParser_names (inp : Str) : NamesList hostMergeParser inp :=
  ⟨by decide, by decide, .inl (by decide), by unfold ListMode; decide, by unfold NoComments; decide⟩

example : hostMergeParser.config.sort &&& SORT_MERGE ≠ 0 := by decide

-- C148_matches: the address of `gate` is matched, the one after it is not.
example : ∃ l, (Parser.parse hostsEnv "gate:80, gates:80,gate:80".toList hostMergeParser).2 = .ok l
    ∧ addressMatchRanges l (sampleV4 10 0 0 1) = .ok true := by
  obtain ⟨l, h1, h2⟩ := C148_matches hostsEnv hostMergeParser "gate:80, gates:80,gate:80".toList (hostMergeParser_names _) hostsEnv_safe
  refine ⟨l, h1, ?_⟩
  obtain ⟨b, h3, h4⟩ := h2 (sampleV4 10 0 0 1)
  rw [h3, h4.2 ⟨"gate:80".toList, by decide +kernel, "gate".toList, "80".toList, _, _,
    ⟨_, trims_self (by decide) (by decide), .port (u := "gate".toList) (by decide) (by decide) (by decide) (by decide) (.inl (.inl (by decide))),
      .inl (by decide)⟩, (by decide +kernel : answerTo hostsEnv hostMergeParser "gate".toList "80".toList
      = .list (spread 6 [.inet sizeofIn 0 { family := AF_INET, port := 0x5000, addr := #v[10, 0, 0, 1], zero := Vector.replicate 8 0 }])),
      List.mem_cons_self, by decide, by decide +kernel⟩]

end Verif
