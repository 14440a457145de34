import Verif.Props.CommentNames

/-! C159: the order in which the name service gives its answers (addr_parser.cpp:1817-1884). Servers often turn the list of
the addresses of a host from one question to the next. What a file of hosts, or of networks around hosts, lets in does not depend on it, nor do the
number of errors and, up to their order, the ranges. -/

namespace Verif

open Spec

/-- Two answers with the same addresses, in any order and any number of times. -/
def SameMembers : GaiAnswer → GaiAnswer → Prop
  | .list l, .list l' => ∀ x, x ∈ l ↔ x ∈ l'
  | .error _ _, .error _ _ => True
  | _, _ => False

/-- Two answers with the same addresses in any order. -/
def Turned : GaiAnswer → GaiAnswer → Prop
  | .list l, .list l' => l.Perm l'
  | .error _ _, .error _ _ => True
  | _, _ => False

/-- The two name services give answers which are alike in this sense to every question about a host. -/
def EachAnswer (R : GaiAnswer → GaiAnswer → Prop) (env1 env2 : ParseEnv) : Prop :=
  ∀ node service protocol, R (env1.getaddrinfo node service false protocol) (env2.getaddrinfo node service false protocol)

/-! ### Lemmas -/

theorem sameMembers_list {x : GaiAnswer} {l : List AddrInfo} (h : SameMembers (.list l) x) : ∃ l', x = .list l' ∧ ∀ y, y ∈ l ↔ y ∈ l' := by
  cases x with
  | list l' => exact ⟨l', rfl, h⟩
  | error r e => exact h.elim

theorem sameMembers_symm {env1 env2 : ParseEnv} (h : EachAnswer SameMembers env1 env2) : EachAnswer SameMembers env2 env1 := by
  intro node service protocol
  have := h node service protocol
  revert this
  cases env1.getaddrinfo node service false protocol <;> cases env2.getaddrinfo node service false protocol <;> intro h
  · trivial
  · exact h
  · exact h
  · exact fun x => (h x).symm

theorem safe_members {env1 env2 : ParseEnv} (h : EachAnswer SameMembers env1 env2) (hs : SafeAnswers env1) : SafeAnswers env2 := by
  intro node service protocol l hp hl x hx
  have := sameMembers_symm h node service protocol
  rw [hl] at this
  obtain ⟨l', h1, h2⟩ := sameMembers_list this
  exact hs node service protocol l' hp h1 x ((h2 x).1 hx)

theorem given_members {env1 env2 : ParseEnv} (h : EachAnswer SameMembers env1 env2) {p : Parser} {e : Str} {n : Nat} (hg : GivenFor env1 p e n) :
    GivenFor env2 p e n := by
  obtain ⟨u, q, l, x, h1, h2, h3, h4⟩ := hg
  have := h (cstr u) (serviceAsked p q) (if p.config.protocol = IPPROTO_TCP ∨ p.config.protocol = IPPROTO_UDP then p.config.protocol else 0)
  unfold answerTo at h2
  rw [h2] at this
  obtain ⟨l', k1, k2⟩ := sameMembers_list this
  exact ⟨u, q, l', x, h1, k1, (k2 x).1 h3, h4⟩

theorem gives_members {env1 env2 : ParseEnv} (h : EachAnswer SameMembers env1 env2) {p : Parser} {i : Str} {n k : Nat} (hg : GivesNetwork env1 p i n k) :
    GivesNetwork env2 p i n k := by
  obtain ⟨t, e, m, u, q, l, h1, h2, h3, h4, h5, h6, x, hx, h7⟩ := hg
  have := h (cstr u) (serviceAsked p q) (if p.config.protocol = IPPROTO_TCP ∨ p.config.protocol = IPPROTO_UDP then p.config.protocol else 0)
  unfold answerTo at h5
  rw [h5] at this
  obtain ⟨l', k1, k2⟩ := sameMembers_list this
  exact ⟨t, e, m, u, q, l', h1, h2, h3, h4, k1, fun y hy => h6 y ((k2 y).2 hy), x, (k2 x).1 hx, h7⟩

theorem turned_answered {env1 env2 : ParseEnv} (h : EachAnswer Turned env1 env2) {p : Parser} {es : List Str} {m : List ((Str × Str) × AddrInfo)}
    {c : Nat} (ha : Answered env1 p es m c) : ∃ m', Answered env2 p es m' c ∧ m.Perm m' := by
  have hq (u q : Str) : Turned (answerTo env1 p u q) (answerTo env2 p u q) := h _ _ _
  induction ha with
  | nil => exact ⟨[], .nil, .refl _⟩
  | @found e u q l es m c hqq hl _ ih =>
    obtain ⟨m', h1, h2⟩ := ih
    have := hq u q
    rw [hl] at this
    cases hl' : answerTo env2 p u q with
    | error r e => rw [hl'] at this; exact this.elim
    | list l' =>
      rw [hl'] at this
      have hp : l.Perm l' := this
      have hb : badAnswers l = badAnswers l' := by
        unfold badAnswers
        rw [(hp.filter wrongSize).length_eq]
        have : l.any noAddressFamily = l'.any noAddressFamily := by
          rw [Bool.eq_iff_iff, List.any_eq_true, List.any_eq_true]
          exact ⟨fun ⟨x, a, b⟩ => ⟨x, hp.mem_iff.1 a, b⟩, fun ⟨x, a, b⟩ => ⟨x, hp.mem_iff.2 a, b⟩⟩
        rw [this]
      rw [hb]
      exact ⟨_, .found hqq hl' h1, ((hp.filter _).map _).append h2⟩
  | @unknown e u q n k es m c hqq hl _ ih =>
    obtain ⟨m', h1, h2⟩ := ih
    have := hq u q
    rw [hl] at this
    cases hl' : answerTo env2 p u q with
    | error r e => exact ⟨m', .unknown hqq hl' h1, h2⟩
    | list l' => rw [hl'] at this; exact this.elim
  | refused hqq _ ih =>
    obtain ⟨m', h1, h2⟩ := ih
    exact ⟨m', .refused hqq h1, h2⟩

theorem turned_members {env1 env2 : ParseEnv} (h : EachAnswer Turned env1 env2) : EachAnswer SameMembers env1 env2 := by
  intro node service protocol
  have := h node service protocol
  revert this
  cases env1.getaddrinfo node service false protocol <;> cases env2.getaddrinfo node service false protocol <;> intro h
  · trivial
  · exact h
  · exact h
  · exact fun x => List.Perm.mem_iff h

/-! ### C159 -/

/-- C159: a file of host names lets in the same addresses, sorted and merged or not, whatever the order of the answers and however often the same
answer is given. -/
theorem C159_names (env1 env2 : ParseEnv) (p : Parser) (inp : Str) (h : NamesFile p inp) (hs : SafeAnswers env1) (he : EachAnswer SameMembers env1 env2) :
    ∃ l1 l2, (Parser.parse env1 inp p).2 = .ok l1 ∧ (Parser.parse env2 inp p).2 = .ok l2
      ∧ ∀ a : Addr, addressMatchRanges l1 a = addressMatchRanges l2 a := by
  obtain ⟨l1, h1, g1⟩ := C152_matches env1 p inp h hs
  obtain ⟨l2, h2, g2⟩ := C152_matches env2 p inp h (safe_members he hs)
  refine ⟨l1, l2, h1, h2, fun a => ?_⟩
  obtain ⟨b, j1, j2⟩ := g1 a
  obtain ⟨b', k1, k2⟩ := g2 a
  rw [j1, k1]
  refine congrArg Res.ok (Bool.eq_iff_iff.2 (j2.trans (Iff.trans ?_ k2.symm)))
  exact ⟨fun ⟨e, x, y⟩ => ⟨e, x, given_members he y⟩, fun ⟨e, x, y⟩ => ⟨e, x, given_members (sameMembers_symm he) y⟩⟩

/-- C159: so does a file of networks around hosts, where the parser does not merge. -/
theorem C159_networks (env1 env2 : ParseEnv) (p : Parser) (inp : Str) (h : NetworksFile p inp) (hm : p.config.sort &&& SORT_MERGE = 0)
    (hs : SafeAnswers env1) (he : EachAnswer SameMembers env1 env2) (hnul : ∀ i ∈ pieces p inp, '\x00' ∉ i)
    (hn : ∀ i ∈ pieces p inp, ∀ t e m, Trims i t → CutMask t e m → ¬ LeftOut e) :
    ∃ l1 l2, (Parser.parse env1 inp p).2 = .ok l1 ∧ (Parser.parse env2 inp p).2 = .ok l2
      ∧ ∀ a : Addr, addressMatchRanges l1 a = addressMatchRanges l2 a := by
  obtain ⟨l1, h1, g1⟩ := C152_networks env1 p inp h hm hs hnul hn
  obtain ⟨l2, h2, g2⟩ := C152_networks env2 p inp h hm (safe_members he hs) hnul hn
  refine ⟨l1, l2, h1, h2, fun a => ?_⟩
  obtain ⟨b, j1, j2⟩ := g1 a
  obtain ⟨b', k1, k2⟩ := g2 a
  rw [j1, k1]
  refine congrArg Res.ok (Bool.eq_iff_iff.2 (j2.trans (Iff.trans ?_ k2.symm)))
  exact ⟨fun ⟨i, x, n, k, y, z⟩ => ⟨i, x, n, k, gives_members he y, z⟩,
    fun ⟨i, x, n, k, y, z⟩ => ⟨i, x, n, k, gives_members (sameMembers_symm he) y, z⟩⟩

/-- C159: where the parser merges too, as long as both lists can be merged (C150). -/
theorem C159_merged (env1 env2 : ParseEnv) (p : Parser) (inp : Str) (h : NetworksFile p inp) (hm : p.config.sort &&& SORT_MERGE ≠ 0)
    (hs : SafeAnswers env1) (he : EachAnswer SameMembers env1 env2) (hnul : ∀ i ∈ pieces p inp, '\x00' ∉ i)
    (hn : ∀ i ∈ pieces p inp, ∀ t e m, Trims i t → CutMask t e m → ¬ LeftOut e) (l1 l2 : List Range)
    (h1 : (Parser.parse env1 inp p).2 = .ok l1) (h2 : (Parser.parse env2 inp p).2 = .ok l2) (a : Addr) :
    addressMatchRanges l1 a = addressMatchRanges l2 a := by
  have hb := C152_bare_exists p inp h.list
  have hnul' : '\x00' ∉ piecesText (separatorOf p) (pieces p inp) := fun hx => by
    rcases piecesText_mem hx with h1 | ⟨e, h1, h2⟩
    · rcases separatorOf_cases p with h2 | h2 | h2 <;> rw [h2] at h1 <;> exact absurd h1 (by decide)
    · exact hnul e h1 h2
  have one (env : ParseEnv) (hs : SafeAnswers env) (l : List Range) (hl : (Parser.parse env inp p).2 = .ok l) :
      ∃ Q : List (Nat × Nat), (∀ n k, (n, k) ∈ Q ↔ ∃ i ∈ pieces p inp, GivesNetwork env p i n k)
        ∧ ∀ a : Addr, ∃ b, addressMatchRanges l a = .ok b ∧ (b = true ↔ LeftOf Q (ip a.getIpv6.addr)) := by
    obtain ⟨Q, g1, g2, g3⟩ := C150_merged env (forbidComments p) (piecesText (separatorOf p) (pieces p inp)) (networksFile_bare h) hm hs hnul'
      (by rw [hb]; exact hn)
    rw [← (C152_bare env p inp _ h.list hb).1] at g2 g3
    rw [hl] at g2 g3
    obtain ⟨l', k1, k2⟩ := g3 fun hc => by cases g2.2 hc
    cases k1
    refine ⟨Q, fun n k => (g1 n k).trans ?_, k2⟩
    simp only [hb, givesNetwork_forbid]
  obtain ⟨Q1, m1, k1⟩ := one env1 hs l1 h1
  obtain ⟨Q2, m2, k2⟩ := one env2 (safe_members he hs) l2 h2
  have hq (q : Nat × Nat) : q ∈ Q1 ↔ q ∈ Q2 := by
    obtain ⟨n, k⟩ := q
    rw [m1, m2]
    exact ⟨fun ⟨i, x, y⟩ => ⟨i, x, gives_members he y⟩, fun ⟨i, x, y⟩ => ⟨i, x, gives_members (sameMembers_symm he) y⟩⟩
  obtain ⟨b, j1, j2⟩ := k1 a
  obtain ⟨b', j3, j4⟩ := k2 a
  rw [j1, j3]
  refine congrArg Res.ok (Bool.eq_iff_iff.2 (j2.trans (Iff.trans ?_ j4.symm)))
  simp only [LeftOf, NextTo, hq]

/-- What a program sees of a range of one address. -/
def seenOf (r : Range) : Nat × Int × Str := (ip r.lo.getIpv6.addr, r.lo.protocol, r.lo.hostname)

/-- C159: when the answers are only turned, the same addresses are read, with their protocols and names, in another order, and there are as many errors. -/
theorem C159_list (env1 env2 : ParseEnv) (p : Parser) (inp : Str) (h : NamesFile p inp) (hu : Unsorted p) (hs : SafeAnswers env1)
    (he : EachAnswer Turned env1 env2) :
    ∃ l1 l2, (Parser.parse env1 inp p).2 = .ok l1 ∧ (Parser.parse env2 inp p).2 = .ok l2
      ∧ (l1.map seenOf).Perm (l2.map seenOf)
      ∧ (Parser.parse env1 inp p).1.getErrorCount = (Parser.parse env2 inp p).1.getErrorCount := by
  obtain ⟨m, c, ha⟩ := C147_total env1 p (pieces p inp)
  obtain ⟨m', ha', hp⟩ := turned_answered he ha
  obtain ⟨p1, rs, h1, h2, _, h3, _⟩ := C152_list env1 p inp m c h hu hs ha
  obtain ⟨p2, rs', g1, g2, _, g3, _⟩ := C152_list env2 p inp m' c h hu (safe_members (turned_members he) hs) ha'
  refine ⟨rs, rs', by rw [h1], by rw [g1], ?_, by rw [h1, g1, h3, g3]⟩
  have hf : ∀ (a : (Str × Str) × AddrInfo) (b : Range), FromAnswer a.1.1 a.1.2 a.2 b → seenOf b = (answerNumber a.2, answerProtocol a.2, a.1.1) := by
    intro a b hab
    exact Prod.ext (fromAnswer_network hab).2.2.1 (Prod.ext hab.protocol hab.hostname)
  rw [each_map (f := fun a : (Str × Str) × AddrInfo => (answerNumber a.2, answerProtocol a.2, a.1.1)) hf h2,
    each_map (f := fun a : (Str × Str) × AddrInfo => (answerNumber a.2, answerProtocol a.2, a.1.1)) hf g2]
  exact hp.map _

/-! ### Cases -/

/-- The name service of C131 with its answers the other way around. -/
def backEnv : ParseEnv :=
  { dualEnv with
    getaddrinfo := fun node service numeric hint =>
      match dualEnv.getaddrinfo node service numeric hint with
      | .list l => .list l.reverse
      | .error r e => .error r e }

theorem backEnv_turned : EachAnswer Turned dualEnv backEnv := by
  intro node service protocol
  show Turned _ (match dualEnv.getaddrinfo node service false protocol with
      | .list l => .list l.reverse
      | .error r e => .error r e)
  cases dualEnv.getaddrinfo node service false protocol with
  | list l => exact (List.reverse_perm l).symm
  | error r e => trivial

theorem dualEnv_safe : SafeAnswers dualEnv := by
  intro node service protocol l hp hl x hx
  by_cases hg : node = "localhost".toList
  · have h1 : dualEnv.getaddrinfo node service false protocol = .list (spread protocol [.inet sizeofIn 0 { family := AF_INET, port := 0, addr := #v[127, 0, 0, 1], zero := Vector.replicate 8 0 },
          .inet6 sizeofIn6 0 { family := AF_INET6, port := 0, flowinfo := 0, addr := #v[0, 0, 0, 0, 0, 0, 0, 0, 0, 0, 0, 0, 0, 0, 0, 1], scope := 0 }]) := if_pos hg
    rw [h1] at hl
    cases hl
    rcases hp with rfl | rfl | rfl
    · rcases (by simpa [spread, retag] using hx : x = _ ∨ x = _ ∨ x = _ ∨ x = _ ∨ x = _ ∨ x = _) with rfl | rfl | rfl | rfl | rfl | rfl <;>
        exact fun _ => ⟨rfl, by unfold KnownProtocol; decide⟩
    · rcases (by simpa [spread, retag] using hx : x = _ ∨ x = _) with rfl | rfl <;> exact fun _ => ⟨rfl, by unfold KnownProtocol; decide⟩
    · rcases (by simpa [spread, retag] using hx : x = _ ∨ x = _) with rfl | rfl <;> exact fun _ => ⟨rfl, by unfold KnownProtocol; decide⟩
  · have h1 : dualEnv.getaddrinfo node service false protocol = .error (-2) 0 := if_neg hg
    rw [h1] at hl
    cases hl

/-- C159_names: the two addresses of a host, in one order and in the other, merged. -/
example : ∃ l1 l2, (Parser.parse dualEnv "localhost".toList hostFileParser).2 = .ok l1 ∧ (Parser.parse backEnv "localhost".toList hostFileParser).2 = .ok l2
    ∧ ∀ a : Addr, addressMatchRanges l1 a = addressMatchRanges l2 a :=
  C159_names _ _ _ _ (hostFileParser_names _) dualEnv_safe (turned_members backEnv_turned)

/-- C159_list: the lists are not the same. -/
example : (∃ l1 l2, (Parser.parse dualEnv "localhost".toList hostListParser).2 = .ok l1 ∧ (Parser.parse backEnv "localhost".toList hostListParser).2 = .ok l2
      ∧ (l1.map seenOf).Perm (l2.map seenOf)
      ∧ (Parser.parse dualEnv "localhost".toList hostListParser).1.getErrorCount = (Parser.parse backEnv "localhost".toList hostListParser).1.getErrorCount)
    ∧ (match (Parser.parse dualEnv "localhost".toList hostListParser).2, (Parser.parse backEnv "localhost".toList hostListParser).2 with
        | .ok l1, .ok l2 => l1.map (ip ·.lo.getIpv6.addr) = [0xFFFF7F000001, 1] && l2.map (ip ·.lo.getIpv6.addr) = [1, 0xFFFF7F000001]
        | _, _ => false) = true :=
  ⟨C159_list _ _ _ _ ⟨by decide, by decide, .inl (by decide), by unfold ListMode; decide⟩ (by unfold Unsorted; decide) dualEnv_safe backEnv_turned,
    by decide +kernel⟩

end Verif
