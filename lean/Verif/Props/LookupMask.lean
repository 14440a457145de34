import Verif.Props.LookupRange
import Verif.Props.MaskText

/-!
# Property C131: a mask after the name of a host
-/

namespace Verif

open Spec

/-- A parser which reads one entry with lookups and masks, and no ranges. -/
structure LooksUpMask (p : Parser) (inp : Str) : Prop where
  lookup : p.config.flags .addressLookup = true
  mask : p.config.flags .mask = true
  range : p.config.flags .addressRange = false ∨ '-' ∉ inp
  one : OneEntry p inp
  sort : Unsorted p

/-- The number of bits of the addresses among which the network of an answer is: those of the family of the address, but always 128 for
an entry written as an IPv6 address, in brackets say. -/
def answerBits (p : Parser) (e : Str) (x : AddrInfo) : Nat := if WrittenAsIpv4 p e ∧ isV4 (answerNumber x) then 32 else 128

/-- The range is the network of `n` bits around the address of an answer. -/
structure NetworkOf (p : Parser) (e u q : Str) (n : Nat) (x : AddrInfo) (r : Range) : Prop extends Stands u x r where
  mask : ip r.lo.getMask = prefixMask (128 - answerBits p e x + n)
  portDefined : r.lo.portDefined = true ↔ q ≠ []

/-- The answers for which a number of bits is too large. -/
def tooShort (p : Parser) (e : Str) (n : Nat) (l : List AddrInfo) : List AddrInfo := (l.filter usable).filter fun x => decide (answerBits p e x < n)

/-! ### Lemmas -/

theorem isIpv4_number {x : AddrInfo} {a : Addr} (h : Spec.Holds x a.getIpv6) : a.isIpv4 = true ↔ isV4 (answerNumber x) := by
  rw [isIpv4_iff, ← Parser.number_of_holds h]
  exact Iff.rfl

theorem answerBits_eq {p : Parser} {e : Str} {x : AddrInfo} {r : Range} (h : Spec.Holds x r.lo.getIpv6) :
    Parser.maskLimit (Parser.asIpv4 p.config e && r.lo.isIpv4) = answerBits p e x := by
  rw [maskLimit_eq, maskBits, answerBits]
  simp only [isIpv4_number h]

theorem answerBits_le (p : Parser) (e : Str) (x : AddrInfo) : answerBits p e x ≤ 128 := by
  rw [answerBits]
  split <;> omega

/-- The masks of the addresses of a host. -/
theorem maskLoop_host {env : ParseEnv} {p : Parser} {e u q m : Str} (hm0 : m ≠ []) (hm : ∀ c ∈ m, c.isDigit = true) {l : List AddrInfo} {rs : List Range}
    (h : Each (fun x r => r.hasFrom = true ∧ r.hasTo = false ∧ AddressOfAnswer u q x r.lo) l rs) (p1 : Parser) :
    ∃ errs rs', Parser.maskLoop env m (Parser.asIpv4 p.config e) rs p1 = (Parser.emitAll errs p1, .ok rs')
      ∧ errs.length = (l.filter fun x => decide (answerBits p e x < Nat.ofDigitChars 10 m 0)).length
      ∧ (errs = [] → Each (NetworkOf p e u q (Nat.ofDigitChars 10 m 0)) l rs') := by
  induction h generalizing p1 with
  | nil => exact ⟨[], [], by rw [Parser.emitAll_nil]; rfl, rfl, fun _ => .nil⟩
  | @cons x r l rs hx _ ih =>
    have hc : ∀ c : Config, Parser.chooseMask c m (Parser.asIpv4 p.config e) = m := fun c => by rw [Parser.chooseMask, if_pos hm0]
    have hb := answerBits_eq (p := p) (e := e) hx.2.2.holds
    rw [Parser.maskLoop, PM.config_bind, hc]
    rcases Nat.lt_or_ge (answerBits p e x) (Nat.ofDigitChars 10 m 0) with h | h
    · obtain ⟨msg, hmsg⟩ := (Parser.parseMask_number env m hm0 hm r.lo _).2 (hb ▸ h)
      have hp : Parser.parseMask env m r.lo (Parser.asIpv4 p.config e && r.lo.isIpv4) p1 = (Parser.emitAll [msg] p1, .ok r.lo) := by
        rw [hmsg, PM.bind_of_ok (Parser.emitError_apply msg p1)]
        rfl
      obtain ⟨errs, rs', h1, h2, _⟩ := ih (Parser.emitAll [msg] p1)
      refine ⟨msg :: errs, { r with lo := r.lo } :: rs', ?_, ?_, by simp⟩
      · rw [PM.bind_of_ok hp, PM.bind_of_ok h1, ← Parser.emitAll_append]
        rfl
      · rw [List.filter_cons, if_pos (decide_eq_true h), List.length_cons, List.length_cons, h2]
    · obtain ⟨errs, rs', h1, h2, h3⟩ := ih p1
      refine ⟨errs, { r with lo := Parser.withMask (Parser.asIpv4 p.config e && r.lo.isIpv4) (Nat.ofDigitChars 10 m 0) r.lo } :: rs', ?_, ?_, ?_⟩
      · rw [(Parser.parseMask_number env m hm0 hm r.lo _).1 (hb ▸ h), PM.pure_bind, PM.bind_of_ok h1]
        rfl
      · rw [List.filter_cons, if_neg (by simpa using h), h2]
      · intro he
        refine .cons ⟨⟨hx.1, hx.2.1, hx.2.2.holds, hx.2.2.protocol, hx.2.2.hostname⟩, ?_, hx.2.2.portDefined⟩ (h3 he)
        show ip (prefixBytes (Nat.ofDigitChars 10 m 0 + (128 - Parser.maskLimit _))) = _
        have := answerBits_le p e x
        rw [hb, ip_prefixBytes _ (by omega), Nat.add_comm]

theorem parse_looksUpMask {env : ParseEnv} {p : Parser} {inp t e m : Str} (h : LooksUpMask p inp) (ht : Trims inp t) (hcut : CutMask t e m)
    {p1 p2 : Parser} {v4 : Bool} {l l2 : List Range} (h1 : Parser.parseAddress env e m [] p = (p1, .ok (v4, l)))
    (h2 : Parser.maskLoop env m v4 l p1 = (p2, .ok l2)) :
    Parser.parse env inp p = (p2, .ok (if p.errorCount = p2.errorCount then l2 else [])) := by
  rw [parse_one_unsorted env inp p h.one h.sort, Parser.parseCidr_mask env inp [] p h.mask, trims_eq ht, cutMask_split hcut]
  dsimp only
  rw [h1]
  dsimp only
  rw [h2]
  rfl

/-- The address of the entry, before its mask. -/
theorem masked_entry {env : ParseEnv} {p : Parser} {inp t e m u q : Str} (h : LooksUpMask p inp) (ht : Trims inp t)
    (hcut : CutMask t e m) (hn : ¬ LeftOut e) (ha : Asks p e u q) :
    u ≠ [] ∧ ∃ v6, Parser.parseAddress env e m [] p
      = (Parser.parseAddressPort env u q [] v6 >>= fun l => (Pure.pure (Parser.asIpv4 p.config e, l) : PM (Bool × List Range))) p := by
  have hh : e ≠ [] ∧ (2 ≤ e.count ':' ∨ e.head? ≠ some ':') := by
    refine ⟨fun h' => hn (.inl h'), ?_⟩
    by_cases h' : e.head? = some ':'
    · exact .inl (Nat.le_of_not_lt fun h'' => hn (.inr (.inl ⟨h', h''⟩)))
    · exact .inr h'
  obtain ⟨hu, v4, v6, h1⟩ := Parser.asks_reads (env := env)
    (h.range.imp_right fun h' h2 => h' (trims_mem ht _ ((cutMask_mem hcut).1 _ h2))) ha
  refine ⟨hu, v6, ?_⟩
  rw [Parser.parseAddress_mask env e m [] p hh]
  rw [h1, PM.bind_def, PM.bind_def]
  have hfst := fun p1 x => Parser.parseAddress_fst env e [] [] p p1 x hh
  rw [h1, PM.bind_def] at hfst
  cases hp : Parser.parseAddressPort env u q [] v6 p with
  | mk p1 r =>
    cases r with
    | ok l =>
      have := hfst p1 (v4, l) (by rw [hp]; rfl)
      dsimp only at this
      subst this
      rfl
    | throw x => rfl
    | ub x => rfl

/-! ### C131 -/

/-- C131: a number of bits after a host. When it is not too large for any of the addresses of the host and all the answers are usable,
the networks of the addresses are returned, in the order of the answers; otherwise the entry is refused with all its addresses, with an
error for each reason. -/
theorem C131_networks (env : ParseEnv) (p : Parser) (inp t e m u q : Str) (l : List AddrInfo) (h : LooksUpMask p inp) (ht : Trims inp t)
    (hcut : CutMask t e m) (hn : ¬ LeftOut e) (ha : Asks p e u q) (hq : p.config.flags .requiredPort = false ∨ q ≠ [])
    (hm0 : m ≠ []) (hm : ∀ c ∈ m, c.isDigit = true) (hl : answerTo env p u q = .list l) (hs : ∀ x ∈ l, SafeAnswer x) :
    ∃ rs n, Reads env p inp rs n ∧ n = badAnswers l + (tooShort p e (Nat.ofDigitChars 10 m 0) l).length
      ∧ (n = 0 → Each (NetworkOf p e u q (Nat.ofDigitChars 10 m 0)) (l.filter usable) rs) ∧ (n ≠ 0 → rs = []) := by
  obtain ⟨hu, v6, h1⟩ := masked_entry (env := env) h ht hcut hn ha
  obtain ⟨errs, rs, g1, g2, g3⟩ := Parser.bound_list h.lookup hu hq v6 hl hs
  have h2 : Parser.parseAddress env e m [] p = (Parser.emitAll errs p, .ok (Parser.asIpv4 p.config e, rs)) := by
    rw [h1, PM.bind_def, g1]
    rfl
  obtain ⟨errs', rs', k1, k2, k3⟩ := maskLoop_host (env := env) (p := p) (e := e) hm0 hm g3 (Parser.emitAll errs p)
  have hp := parse_looksUpMask h ht hcut h2 k1
  rw [← Parser.emitAll_append] at hp
  have hlen : (errs ++ errs').length = badAnswers l + (tooShort p e (Nat.ofDigitChars 10 m 0) l).length := by
    rw [List.length_append, g2, k2, tooShort]
  have hcount : p.errorCount = (Parser.emitAll (errs ++ errs') p).errorCount ↔ (errs ++ errs').length = 0 := by
    simp only [Parser.emitAll]
    omega
  refine ⟨_, _, ⟨_, hp, emitted⟩, hlen, ?_, ?_⟩
  · intro h0
    rw [if_pos (hcount.2 h0)]
    exact k3 (List.append_eq_nil_iff.1 (List.length_eq_zero_iff.1 h0)).2
  · intro h0
    rw [if_neg fun h' => h0 (hcount.1 h')]

/-- C131: an unknown host, with a mask whatever it is. -/
theorem C131_unknown (env : ParseEnv) (p : Parser) (inp t e m u q : Str) (r c : Int) (h : LooksUpMask p inp) (ht : Trims inp t)
    (hcut : CutMask t e m) (hn : ¬ LeftOut e) (ha : Asks p e u q) (hq : p.config.flags .requiredPort = false ∨ q ≠ [])
    (hl : answerTo env p u q = .error r c) : Reads env p inp [] 1 := by
  obtain ⟨hu, v6, h1⟩ := masked_entry (env := env) h ht hcut hn ha
  obtain ⟨q', g1, g2⟩ := Parser.parseAddressPort_lookup (env := env) h.lookup hu hq v6
  have : Parser.Refuses (Parser.parseAddressPort env u q [] v6) p := by
    unfold Parser.Refuses
    rw [g1, Parser.lookupAddress, PM.config_bind, g2,
      show env.getaddrinfo (cstr u) (serviceAsked p q) false (Parser.hintProtocol p.config.protocol) = .error r c from hl]
    exact Parser.refuses_error _ p
  obtain ⟨msg, h2⟩ := this
  have h3 : Parser.parseAddress env e m [] p = (Parser.emitAll [msg] p, .ok (Parser.asIpv4 p.config e, [])) := by
    rw [h1, PM.bind_def, h2]
    rfl
  refine ⟨Parser.emitAll [msg] p, ?_, emitted⟩
  rw [parse_looksUpMask h ht hcut h3 (p2 := Parser.emitAll [msg] p) (l2 := []) rfl]
  split <;> rfl

/-- C131: what is matched: an address in the network of one of the addresses of the host, and nothing when the entry is refused. -/
theorem C131_matches (env : ParseEnv) (p : Parser) (inp t e m u q : Str) (l : List AddrInfo) (h : LooksUpMask p inp) (ht : Trims inp t)
    (hcut : CutMask t e m) (hn : ¬ LeftOut e) (ha : Asks p e u q) (hq : p.config.flags .requiredPort = false ∨ q ≠ [])
    (hm0 : m ≠ []) (hm : ∀ c ∈ m, c.isDigit = true) (hl : answerTo env p u q = .list l) (hs : ∀ x ∈ l, SafeAnswer x) :
    ∃ p' rs, Parser.parse env inp p = (p', .ok rs) ∧ ∀ a : Addr, ∃ b, addressMatchRanges rs a = .ok b
      ∧ (b = true ↔ (∀ x ∈ l, usable x = true ∧ Nat.ofDigitChars 10 m 0 ≤ answerBits p e x)
          ∧ ∃ x ∈ l, InNetwork (ip a.getIpv6.addr) (answerNumber x) (128 - answerBits p e x + Nat.ofDigitChars 10 m 0)) := by
  obtain ⟨rs, n, ⟨p', h1, _⟩, h2, h3, h4⟩ := C131_networks env p inp t e m u q l h ht hcut hn ha hq hm0 hm hl hs
  have hbad : n = 0 ↔ ∀ x ∈ l, usable x = true ∧ Nat.ofDigitChars 10 m 0 ≤ answerBits p e x := by
    have key : ∀ x : AddrInfo, usable x = true ↔ wrongSize x = false ∧ noAddressFamily x = false := by
      intro x
      cases x with
      | inet len pr sa => simp [usable, wrongSize, noAddressFamily]
      | inet6 len pr sa => simp [usable, wrongSize, noAddressFamily]
      | other f => simp [usable, wrongSize, noAddressFamily]
    have hb : badAnswers l = 0 ↔ ∀ x ∈ l, usable x = true := by
      have hif : (if l.any noAddressFamily = true then 1 else 0) = 0 ↔ ∀ x ∈ l, noAddressFamily x = false := by
        by_cases h' : l.any noAddressFamily = true
        · rw [if_pos h']
          obtain ⟨x, hx, hx'⟩ := List.any_eq_true.1 h'
          refine ⟨fun h => absurd h (by decide), fun h => ?_⟩
          rw [h x hx] at hx'
          cases hx'
        · rw [if_neg h']
          refine ⟨fun _ x hx => ?_, fun _ => rfl⟩
          cases hx' : noAddressFamily x with
          | false => rfl
          | true => exact absurd (List.any_eq_true.2 ⟨x, hx, hx'⟩) h'
      rw [badAnswers, Nat.add_eq_zero_iff, hif, List.length_eq_zero_iff, List.filter_eq_nil_iff]
      constructor
      · rintro ⟨g1, g2⟩ x hx
        exact (key x).2 ⟨Bool.eq_false_iff.2 (g1 x hx), g2 x hx⟩
      · intro g
        exact ⟨fun x hx => Bool.eq_false_iff.1 ((key x).1 (g x hx)).1, fun x hx => ((key x).1 (g x hx)).2⟩
    rw [h2, Nat.add_eq_zero_iff, hb, List.length_eq_zero_iff, tooShort, List.filter_eq_nil_iff]
    constructor
    · rintro ⟨g1, g2⟩ x hx
      refine ⟨g1 x hx, ?_⟩
      have := g2 x (List.mem_filter.2 ⟨hx, g1 x hx⟩)
      simpa using this
    · intro g
      refine ⟨fun x hx => (g x hx).1, fun x hx => ?_⟩
      have := (g x (List.mem_filter.1 hx).1).2
      simpa using this
  refine ⟨p', rs, h1, fun a => ?_⟩
  obtain ⟨b, h6, h7⟩ := C35_any_range rs a
  refine ⟨b, h6, h7.trans ?_⟩
  by_cases h0 : n = 0
  · have hall := hbad.1 h0
    have hf : l.filter usable = l := List.filter_eq_self.2 fun x hx => (hall x hx).1
    have he := h3 h0
    rw [hf] at he
    have hnet : ∀ x ∈ l, ∀ r, NetworkOf p e u q (Nat.ofDigitChars 10 m 0) x r →
        (r.matchAddr a = .ok true ↔ InNetwork (ip a.getIpv6.addr) (answerNumber x) (128 - answerBits p e x + Nat.ofDigitChars 10 m 0)) := by
      intro x hx r hr
      have := (hall x hx).2
      have := answerBits_le p e x
      exact network_match ⟨hr.hasFrom, hr.hasTo, Parser.number_of_holds hr.holds, by omega, hr.mask⟩ a
    constructor
    · rintro ⟨r, hr, hra⟩
      obtain ⟨x, hx, hxr⟩ := Parser.each_right he hr
      exact ⟨hall, x, hx, (hnet x hx r hxr).1 hra⟩
    · rintro ⟨_, x, hx, hxa⟩
      obtain ⟨r, hr, hxr⟩ := Parser.each_left he hx
      exact ⟨r, hr, (hnet x hx r hxr).2 hxa⟩
  · rw [h4 h0]
    constructor
    · rintro ⟨r, hr, _⟩
      cases hr
    · rintro ⟨hall, _⟩
      exact absurd (hbad.2 hall) h0

/-- C131: a mask which is not a number, where such masks are not allowed, refuses every host which has an address. -/
theorem C131_not_number (env : ParseEnv) (p : Parser) (inp t e m u q : Str) (l : List AddrInfo) (h : LooksUpMask p inp) (ht : Trims inp t)
    (hcut : CutMask t e m) (hn : ¬ LeftOut e) (ha : Asks p e u q) (hq : p.config.flags .requiredPort = false ∨ q ≠ [])
    (ham : p.config.flags .addressMask = false) (hnul : '\x00' ∉ m) (hm : ∃ c ∈ m, c.isDigit = false) (hl : answerTo env p u q = .list l)
    (hs : ∀ x ∈ l, SafeAnswer x) : Reads env p inp [] (badAnswers l + (l.filter usable).length) := by
  have hm0 : m ≠ [] := by
    rintro rfl
    obtain ⟨c, hc, _⟩ := hm
    cases hc
  obtain ⟨hu, v6, h1⟩ := masked_entry (env := env) h ht hcut hn ha
  obtain ⟨errs, rs, g1, g2, g3⟩ := Parser.bound_list h.lookup hu hq v6 hl hs
  have h2 : Parser.parseAddress env e m [] p = (Parser.emitAll errs p, .ok (Parser.asIpv4 p.config e, rs)) := by
    rw [h1, PM.bind_def, g1]
    rfl
  have key : ∀ (l : List AddrInfo) (rs : List Range), Each (fun x r => r.hasFrom = true ∧ r.hasTo = false ∧ AddressOfAnswer u q x r.lo) l rs →
      ∀ p1 : Parser, p1.config = p.config → ∃ errs' rs', Parser.maskLoop env m (Parser.asIpv4 p.config e) rs p1 = (Parser.emitAll errs' p1, .ok rs')
        ∧ errs'.length = l.length ∧ (l = [] → rs' = []) := by
    intro l rs he
    induction he with
    | nil => exact fun p1 _ => ⟨[], [], by rw [Parser.emitAll_nil]; rfl, rfl, fun _ => rfl⟩
    | @cons x r l rs _ _ ih =>
      intro p1 hp1
      have hc : ∀ c : Config, Parser.chooseMask c m (Parser.asIpv4 p.config e) = m := fun c => by rw [Parser.chooseMask, if_pos hm0]
      obtain ⟨msg, hp⟩ := Parser.parseMask_refuses env hm0 hnul r.lo (Parser.asIpv4 p.config e && r.lo.isIpv4) p1 (by rw [hp1]; exact ham) (by
        rintro ⟨hd, _⟩
        obtain ⟨c, hc, hc'⟩ := hm
        rw [hd c hc] at hc'
        cases hc')
      obtain ⟨errs', rs', k1, k2, _⟩ := ih (Parser.emitAll [msg] p1) hp1
      refine ⟨msg :: errs', { r with lo := r.lo } :: rs', ?_, by rw [List.length_cons, List.length_cons, k2], fun h' => nomatch h'⟩
      rw [Parser.maskLoop, PM.config_bind, hc, PM.bind_of_ok hp, PM.bind_of_ok k1, ← Parser.emitAll_append]
      rfl
  obtain ⟨errs', rs', k1, k2, k3⟩ := key _ _ g3 (Parser.emitAll errs p) rfl
  have hp := parse_looksUpMask h ht hcut h2 k1
  rw [← Parser.emitAll_append] at hp
  have hlen : (errs ++ errs').length = badAnswers l + (l.filter usable).length := by
    rw [List.length_append, g2, k2]
  have hres : (if p.errorCount = (Parser.emitAll (errs ++ errs') p).errorCount then rs' else []) = [] := by
    by_cases h0 : (l.filter usable).length = 0
    · rw [k3 (List.length_eq_zero_iff.1 h0)]
      split <;> rfl
    · rw [if_neg]
      simp only [Parser.emitAll]
      omega
  rw [hres] at hp
  rw [← hlen]
  exact ⟨_, hp, emitted⟩

/-- The text of a host without anything around it. -/
def BareHost (u : Str) : Prop := u ≠ [] ∧ ∀ c ∈ u, c ≠ ':' ∧ c ≠ '[' ∧ c ≠ ']' ∧ c ≠ '/'

theorem bareHost_asks {p : Parser} {u : Str} (h : BareHost u) : Asks p u u [] ∧ WrittenAsIpv4 p u ∧ '/' ∉ u ∧ ¬ LeftOut u := by
  have hb : '[' ∉ u := fun h' => (h.2 _ h').2.1 rfl
  have hc : ':' ∉ u := fun h' => (h.2 _ h').1 rfl
  have hh : u.head? ≠ some '[' := fun h' => hb (List.mem_of_head? h')
  refine ⟨.name h.1 hc hh, ⟨?_, hh, fun h' => (h.2 _ h').2.2.1 rfl, .inr (.inr (.inl hc))⟩, fun h' => (h.2 _ h').2.2.2 rfl, ?_⟩
  · rw [List.count_eq_zero.2 hc]
    decide
  · rintro (h' | h' | h')
    · exact h.1 h'
    · exact hc (List.mem_of_head? h'.1)
    · exact hb (h'.subset (by decide))

/-- C131 as one would expect it: a name with a number of bits lets an IPv4 address in only when one of the IPv4 addresses of the host
starts with the same bits. -/
def C131_claim : Prop :=
  ∀ (env : ParseEnv) (p : Parser) (u m : Str) (l : List AddrInfo) (rs : List Range) (a : Addr), LooksUpMask p (u ++ '/' :: m) → BareHost u →
    Trims (u ++ '/' :: m) (u ++ '/' :: m) → m ≠ [] → (∀ c ∈ m, c.isDigit = true) → p.config.flags .requiredPort = false →
    answerTo env p u [] = .list l → (∀ x ∈ l, SafeAnswer x) → (Parser.parse env (u ++ '/' :: m) p).2 = .ok rs →
    isV4 (ip a.getIpv6.addr) → addressMatchRanges rs a = .ok true →
    ∃ x ∈ l, isV4 (answerNumber x) ∧ InNetwork (ip a.getIpv6.addr) (answerNumber x) (96 + Nat.ofDigitChars 10 m 0)

/-- C131: it does when every address of the host is an IPv4 address, and then it lets in IPv4 addresses only. -/
theorem C131_claim_partial (env : ParseEnv) (p : Parser) (u m : Str) (l : List AddrInfo) (rs : List Range) (a : Addr)
    (h : LooksUpMask p (u ++ '/' :: m)) (hu : BareHost u) (ht : Trims (u ++ '/' :: m) (u ++ '/' :: m)) (hm0 : m ≠ [])
    (hm : ∀ c ∈ m, c.isDigit = true) (hr : p.config.flags .requiredPort = false) (hl : answerTo env p u [] = .list l)
    (hs : ∀ x ∈ l, SafeAnswer x) (h4 : ∀ x ∈ l, isV4 (answerNumber x)) (hp : (Parser.parse env (u ++ '/' :: m) p).2 = .ok rs)
    (hmatch : addressMatchRanges rs a = .ok true) :
    isV4 (ip a.getIpv6.addr) ∧ ∃ x ∈ l, InNetwork (ip a.getIpv6.addr) (answerNumber x) (96 + Nat.ofDigitChars 10 m 0) := by
  obtain ⟨ha, hw, hsl, hn⟩ := bareHost_asks (p := p) hu
  obtain ⟨p', rs', h1, h2⟩ := C131_matches env p _ _ u m u [] l h ht ⟨hsl, .inr rfl⟩ hn ha (.inl hr) hm0 hm hl hs
  rw [h1] at hp
  cases hp
  obtain ⟨b, h3, h5⟩ := h2 a
  rw [hmatch] at h3
  cases h3
  obtain ⟨hall, x, hx, hin⟩ := h5.1 rfl
  have hb : answerBits p u x = 32 := if_pos ⟨hw, h4 x hx⟩
  have hle := (hall x hx).2
  rw [hb] at hin hle
  refine ⟨?_, x, hx, hin⟩
  have hx4 := h4 x hx
  rw [isV4_iff_div] at hx4 ⊢
  unfold InNetwork at hin
  generalize hk : Nat.ofDigitChars 10 m 0 = n at hin hle
  have e : 128 - (128 - 32 + n) + n = 32 := by omega
  rw [← hx4, ← e, Nat.pow_add, ← Nat.div_div_eq_div_mul, ← Nat.div_div_eq_div_mul, hin]

/-- A name service with a host of two addresses, `127.0.0.1` and `::1`. -/
def dualEnv : ParseEnv :=
  { sampleEnv with
    getaddrinfo := fun node _ _ hint =>
      if node = "localhost".toList then
        .list (spread hint [.inet sizeofIn 0 { family := AF_INET, port := 0, addr := #v[127, 0, 0, 1], zero := Vector.replicate 8 0 },
          .inet6 sizeofIn6 0 { family := AF_INET6, port := 0, flowinfo := 0, addr := #v[0, 0, 0, 0, 0, 0, 0, 0, 0, 0, 0, 0, 0, 0, 0, 1], scope := 0 }])
      else .error (-2) 0 }

/-- Lookups and masks, TCP only. -/
def hostMaskParser : Parser := ParserOp.runAll [(sampleEnv, .setAllow 9 true), (sampleEnv, .setProtocol 6)] Parser.create

theorem hostMaskParser_looksUp (inp : Str) (h : inp ≠ []) : LooksUpMask hostMaskParser inp where
  lookup := by decide
  mask := by decide
  range := .inl (by decide)
  one := ⟨h, fun x _ => by
    rw [separates, show hostMaskParser.config.flags .multiAddressesCommas = false by decide,
      show hostMaskParser.config.flags .multiAddressesSpaces = false by decide,
      show hostMaskParser.config.flags .multiAddressesNewlines = false by decide]
    rfl, ⟨by decide, by decide⟩⟩
  sort := by unfold Unsorted; decide

/-- The answers about `localhost`. -/
def dualAnswers : List AddrInfo :=
  [.inet sizeofIn 6 { family := AF_INET, port := 0, addr := #v[127, 0, 0, 1], zero := Vector.replicate 8 0 },
    .inet6 sizeofIn6 6 { family := AF_INET6, port := 0, flowinfo := 0, addr := #v[0, 0, 0, 0, 0, 0, 0, 0, 0, 0, 0, 0, 0, 0, 0, 1], scope := 0 }]

theorem dual_answers : answerTo dualEnv hostMaskParser "localhost".toList [] = .list dualAnswers := by decide +kernel

theorem dual_safe : ∀ x ∈ dualAnswers, SafeAnswer x := by
  intro x hx
  rcases (by simpa [dualAnswers] using hx : x = _ ∨ x = _) with rfl | rfl <;> exact fun _ => ⟨rfl, by unfold KnownProtocol; decide⟩

/-- `8.8.8.8`. -/
def farAway : Addr := sampleV4 8 8 8 8

/-- C131 is false as one would expect it: `localhost/8` is also the network `::/8`, in which every IPv4 address is. -/
theorem C131_claim_fails : ¬ C131_claim := by
  intro h
  have hu : BareHost "localhost".toList := ⟨by decide, by decide⟩
  have ht : Trims "localhost/8".toList "localhost/8".toList := trims_self (by decide) (by decide)
  have hlk := hostMaskParser_looksUp "localhost/8".toList (by decide)
  obtain ⟨ha, hw, hsl, hn⟩ := bareHost_asks (p := hostMaskParser) hu
  obtain ⟨p', rs, h1, h2⟩ := C131_matches dualEnv hostMaskParser "localhost/8".toList "localhost/8".toList "localhost".toList "8".toList
    "localhost".toList [] dualAnswers hlk ht ⟨hsl, .inr rfl⟩ hn ha (.inl (by decide)) (by decide) (by decide) dual_answers dual_safe
  obtain ⟨b, h3, h4⟩ := h2 farAway
  have hb : b = true := by
    refine h4.2 ⟨?_, _, List.mem_cons_of_mem _ List.mem_cons_self, ?_⟩
    · intro x hx
      refine ⟨?_, ?_⟩
      · rcases (by simpa [dualAnswers] using hx : x = _ ∨ x = _) with rfl | rfl <;> decide
      · rw [answerBits]
        split <;> decide
    · rw [answerBits, if_neg (by
        rintro ⟨_, h'⟩
        exact absurd h' (by unfold isV4 inBlock; decide))]
      unfold InNetwork
      decide
  subst hb
  obtain ⟨x, hx, hx4, hin⟩ := h dualEnv hostMaskParser "localhost".toList "8".toList dualAnswers rs farAway hlk hu ht (by decide) (by decide)
    (by decide) dual_answers dual_safe (by show (Parser.parse dualEnv "localhost/8".toList hostMaskParser).2 = _; rw [h1])
    (by unfold isV4 inBlock; decide) h3
  rcases (by simpa [dualAnswers] using hx : x = _ ∨ x = _) with rfl | rfl
  · exact absurd hin (by unfold InNetwork; decide)
  · exact absurd hx4 (by unfold isV4 inBlock; decide)

/-! ### Examples -/

-- C131_networks: two networks.
example : ∃ rs, Reads dualEnv hostMaskParser "localhost/8".toList rs 0 ∧ rs.length = 2 := by
  obtain ⟨ha, hw, hsl, hn⟩ := bareHost_asks (p := hostMaskParser) (u := "localhost".toList) ⟨by decide, by decide⟩
  obtain ⟨rs, n, h1, h2, h3, _⟩ := C131_networks dualEnv hostMaskParser "localhost/8".toList "localhost/8".toList "localhost".toList "8".toList
    "localhost".toList [] dualAnswers (hostMaskParser_looksUp _ (by decide)) (trims_self (by decide) (by decide)) ⟨hsl, .inr rfl⟩ hn ha
    (.inl (by decide)) (by decide) (by decide) dual_answers dual_safe
  have hn : n = 0 := by
    rw [h2]
    unfold tooShort answerBits isV4 inBlock
    decide +kernel
  subst hn
  refine ⟨rs, h1, ?_⟩
  cases h3 rfl with
  | cons _ h2 => cases h2 with
    | cons _ h2 => cases h2; rfl

-- Refused, with one error: 40 bits are too many for the IPv4 address.
example : Reads dualEnv hostMaskParser "localhost/40".toList [] 1 := by
  obtain ⟨ha, hw, hsl, hn⟩ := bareHost_asks (p := hostMaskParser) (u := "localhost".toList) ⟨by decide, by decide⟩
  obtain ⟨rs, n, h1, h2, _, h3⟩ := C131_networks dualEnv hostMaskParser "localhost/40".toList "localhost/40".toList "localhost".toList "40".toList
    "localhost".toList [] dualAnswers (hostMaskParser_looksUp _ (by decide)) (trims_self (by decide) (by decide)) ⟨hsl, .inr rfl⟩ hn ha
    (.inl (by decide)) (by decide) (by decide) dual_answers dual_safe
  have hn : n = 1 := by
    rw [h2]
    unfold tooShort answerBits isV4 inBlock
    decide +kernel
  subst hn
  rw [h3 (by decide)] at h1
  exact h1

-- C131_unknown and C131_not_number.
example : Reads dualEnv hostMaskParser "nowhere/8".toList [] 1 := by
  obtain ⟨ha, hw, hsl, hn⟩ := bareHost_asks (p := hostMaskParser) (u := "nowhere".toList) ⟨by decide, by decide⟩
  exact C131_unknown dualEnv hostMaskParser "nowhere/8".toList "nowhere/8".toList "nowhere".toList "8".toList "nowhere".toList [] (-2) 0
    (hostMaskParser_looksUp _ (by decide)) (trims_self (by decide) (by decide)) ⟨hsl, .inr rfl⟩ hn ha (.inl (by decide)) (by decide +kernel)

example : Reads dualEnv hostMaskParser "localhost/255.0.0.0".toList [] 2 := by
  obtain ⟨ha, hw, hsl, hn⟩ := bareHost_asks (p := hostMaskParser) (u := "localhost".toList) ⟨by decide, by decide⟩
  exact C131_not_number dualEnv hostMaskParser "localhost/255.0.0.0".toList "localhost/255.0.0.0".toList "localhost".toList "255.0.0.0".toList
    "localhost".toList [] dualAnswers (hostMaskParser_looksUp _ (by decide)) (trims_self (by decide) (by decide)) ⟨hsl, .inr rfl⟩ hn ha
    (.inl (by decide)) (by decide) (by decide) ⟨'.', by decide, by decide⟩ dual_answers dual_safe

-- C131_claim_partial: a host with an IPv4 address only.
example (rs : List Range) (a : Addr) (hp : (Parser.parse hostsEnv "gate/24".toList hostMaskParser).2 = .ok rs)
    (hm : addressMatchRanges rs a = .ok true) : isV4 (ip a.getIpv6.addr) :=
  (C131_claim_partial hostsEnv hostMaskParser "gate".toList "24".toList
    [.inet sizeofIn 6 { family := AF_INET, port := 0x5000, addr := #v[10, 0, 0, 1], zero := Vector.replicate 8 0 }] rs a
    (hostMaskParser_looksUp _ (by decide)) ⟨by decide, by decide⟩ (trims_self (by decide) (by decide)) (by decide) (by decide) (by decide)
    (by decide +kernel) (by
      intro x hx
      rcases (by simpa using hx : x = _) with rfl
      exact fun _ => ⟨rfl, by unfold KnownProtocol; decide⟩) (by
      intro x hx
      rcases (by simpa using hx : x = _) with rfl
      unfold isV4 inBlock
      decide) hp hm).1

end Verif
