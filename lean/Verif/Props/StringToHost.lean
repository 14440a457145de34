import Verif.Props.LookupNetworks

/-! C153: which host names `string_to_addr()` converts (addr_parser.cpp:2314-2390, 1701-1885, 2042-2270): those of the hosts with one address. A
host with several addresses, of which all but one may be of another family, is refused as one which is not known. -/

namespace Verif

open Spec

/-- The protocol of which the name service is asked, 0 for all of them. -/
def askedProtocol (env : ParseEnv) (proto : Str) : Int := if proto = [] then 0 else (env.getprotobyname (cstr proto)).getD 0

/-- The protocol of the address which is returned. -/
def givenProtocol (env : ParseEnv) (proto : Str) : Int := if proto = [] then 6 else (env.getprotobyname (cstr proto)).getD 0

/-- No protocol, or TCP or UDP. -/
def TcpOrUdp (env : ParseEnv) (proto : Str) : Prop :=
  proto ≠ [] → env.getprotobyname (cstr proto) = some 6 ∨ env.getprotobyname (cstr proto) = some 17

/-- The addresses of the host `u`, in the answer to the question of the parser about it and the port `q`. -/
def HostHas (env : ParseEnv) (proto : Str) (p : Parser) (u q : Str) (found : List AddrInfo) : Prop :=
  (∀ x ∈ found, CompleteAnswer x) ∧ answerTo env p u q = .list (spread (askedProtocol env proto) found)

/-- The address `r` is the one of the answer `x` about the host `u` and the port `q`. -/
structure HostAddr (u q : Str) (protocol : Int) (x : AddrInfo) (r : Addr) : Prop where
  holds : Spec.Holds x r.getIpv6
  protocol : r.protocol = protocol
  hostname : r.hostname = u
  portDefined : r.portDefined = true ↔ q ≠ []

/-! ### Lemmas -/

section
variable {env : ParseEnv} {d : Str} {port : Int} {proto : Str} {mask : Bool}

theorem own_config (hacc : Acceptable env d port proto) : OwnConfig env port proto mask (ownParser env d port proto mask).config := by
  rcases stringToAddr_cases (env := env) (d := d) (port := port) (proto := proto) (mask := mask) [] with ⟨h, _⟩ | ⟨_, _, h⟩
  · exact absurd hacc h
  · exact h

theorem asked_cases (hp : TcpOrUdp env proto) :
    (proto = [] ∧ askedProtocol env proto = 0 ∧ givenProtocol env proto = 6 ∧ protocolNumber env proto = -1)
      ∨ (proto ≠ [] ∧ (askedProtocol env proto = 6 ∨ askedProtocol env proto = 17) ∧ givenProtocol env proto = askedProtocol env proto
          ∧ protocolNumber env proto = askedProtocol env proto) := by
  by_cases h0 : proto = []
  · exact .inl ⟨h0, if_pos h0, if_pos h0, if_pos h0⟩
  · refine .inr ⟨h0, ?_⟩
    rw [askedProtocol, givenProtocol, protocolNumber, if_neg h0, if_neg h0, if_neg h0]
    rcases hp h0 with h | h <;> rw [h]
    · exact ⟨.inl rfl, rfl, rfl⟩
    · exact ⟨.inr rfl, rfl, rfl⟩

theorem answer_hint (hp : TcpOrUdp env proto) (hacc : Acceptable env d port proto) (u q : Str) :
    answerTo env (ownParser env d port proto mask) u q
      = env.getaddrinfo (cstr u) (serviceAsked (ownParser env d port proto mask) q) false (askedProtocol env proto) := by
  rw [answerTo, (own_config hacc).protocol]
  rcases asked_cases hp with ⟨_, h1, _, h2⟩ | ⟨_, h1, _, h2⟩
  · rw [h1, h2]
    rfl
  · rw [h2, if_pos]
    exact h1

theorem host_has (henv : GlibcAnswers env) (hp : TcpOrUdp env proto) (hacc : Acceptable env d port proto) {u q : Str} {l : List AddrInfo}
    (hl : answerTo env (ownParser env d port proto mask) u q = .list l) :
    ∃ found, HostHas env proto (ownParser env d port proto mask) u q found := by
  rw [answer_hint hp hacc] at hl
  obtain ⟨found, h1, h2⟩ := henv _ _ _ _ hl
  exact ⟨found, h1, by rw [answer_hint hp hacc, hl, h2]⟩

theorem own_flag (hacc : Acceptable env d port proto) (f : Allow) :
    (ownParser env d port proto mask).config.flags f = if f = .mask then mask else decide (f = .address ∨ f = .addressLookup ∨ f = .port) := by
  rw [(own_config hacc).flags]

theorem own_entry (hacc : Acceptable env d port proto) {a : Str} (ha : a ≠ []) : OneEntry (ownParser env d port proto mask) a := by
  refine ⟨ha, fun x _ => ?_, ?_⟩
  · simp [separates, own_flag hacc]
  · simp [NoComments, own_flag hacc]

theorem own_unsorted (hacc : Acceptable env d port proto) : Unsorted (ownParser env d port proto mask) := by
  rw [Unsorted, (own_config hacc).sort]
  rfl

theorem own_looksUp (hacc : Acceptable env d port proto) {a : Str} (ha : a ≠ []) : LooksUp (ownParser env d port proto false) a :=
  ⟨by simp [own_flag hacc], by simp [own_flag hacc], .inl (by simp [own_flag hacc]), own_entry hacc ha, own_unsorted hacc⟩

theorem own_looksUpMask (hacc : Acceptable env d port proto) {a : Str} (ha : a ≠ []) : LooksUpMask (ownParser env d port proto true) a :=
  ⟨by simp [own_flag hacc], by simp [own_flag hacc], .inl (by simp [own_flag hacc]), own_entry hacc ha, own_unsorted hacc⟩

theorem own_required (hacc : Acceptable env d port proto) : (ownParser env d port proto mask).config.flags .requiredPort = false := by
  simp [own_flag hacc]

theorem spread_usable {found : List AddrInfo} (h : ∀ x ∈ found, CompleteAnswer x) (hint : Int) : ∀ x ∈ spread hint found, usable x = true := by
  intro y hy
  rw [spread] at hy
  split at hy
  · obtain ⟨x, hx, hy⟩ := List.mem_flatMap.1 hy
    simp only [List.mem_cons, List.not_mem_nil, or_false] at hy
    rcases hy with rfl | rfl | rfl <;> exact usable_retag (h x hx) _
  · obtain ⟨x, hx, rfl⟩ := List.mem_map.1 hy
    exact usable_retag (h x hx) _

/-- Of three ranges for each address, one has the protocol TCP. -/
theorem tcp_count {S : AddrInfo → Range → Prop} (hS : ∀ x r, S x r → r.lo.protocol = answerProtocol x) :
    ∀ {found : List AddrInfo} {rs : List Range}, (∀ x ∈ found, CompleteAnswer x) → Each S (spread 0 found) rs →
      (rs.filter fun r => r.lo.protocol == 6).length = found.length
  | [], rs, _, h => by
    cases h
    rfl
  | x :: found, rs, hc, h => by
    have hx := hc x List.mem_cons_self
    rw [spread, if_pos rfl, List.flatMap_cons] at h
    cases h with
    | cons h1 h => cases h with
      | cons h2 h => cases h with
        | cons h3 h =>
          have ih := tcp_count hS (found := found) (fun y hy => hc y (List.mem_cons_of_mem _ hy)) (by rw [spread, if_pos rfl]; exact h)
          have e1 := (hS _ _ h1).trans (protocol_retag hx (by decide))
          have e2 := (hS _ _ h2).trans (protocol_retag hx (by decide))
          have e3 := (hS _ _ h3).trans (protocol_retag hx (by decide))
          rw [List.filter_cons_of_pos (by rw [e1]; rfl), List.filter_cons_of_neg (by rw [e2]; decide), List.filter_cons_of_neg (by rw [e3]; decide),
            List.length_cons, List.length_cons, ih]

/-- What is picked of the ranges made of the addresses of a host. -/
theorem picks_found {S : AddrInfo → Range → Prop} (hS : ∀ x r, S x r → r.lo.protocol = answerProtocol x) (hp : TcpOrUdp env proto)
    {found : List AddrInfo} {rs : List Range} (hc : ∀ x ∈ found, CompleteAnswer x) (h : Each S (spread (askedProtocol env proto) found) rs) :
    (found.length ≠ 1 → ∀ r, ¬ Picks proto rs r)
      ∧ ∀ x, found = [x] → ∃ s, S (retag (givenProtocol env proto) x) s ∧ s.lo.protocol = givenProtocol env proto ∧ Picks proto rs s.lo := by
  rcases asked_cases hp with ⟨h0, h1, h2, _⟩ | ⟨h0, h1, h2, _⟩
  · rw [h1] at h
    rw [h2]
    constructor
    · intro hne r hr
      have hcount := tcp_count hS hc h
      rcases hr with ⟨s, rfl, _⟩ | ⟨_, _, before, s, after, rfl, _, h3, h4⟩
      · have := each_length h
        rw [spread, if_pos rfl, List.length_singleton] at this
        have e : ∀ l : List AddrInfo, (l.flatMap fun x => [retag 6 x, retag 17 x, retag 0 x]).length = 3 * l.length := by
          intro l
          induction l with
          | nil => rfl
          | cons _ _ ih =>
            rw [List.flatMap_cons, List.length_append, ih]
            simp only [List.length_cons, List.length_nil]
            omega
        rw [e] at this
        omega
      · rw [filter_single (f := fun r : Range => r.lo.protocol == 6) (r := s) |>.2 ⟨before, after, rfl, beq_iff_eq.2 h3, fun s' hs => beq_eq_false_iff_ne.2 (h4 s' hs)⟩] at hcount
        exact hne hcount.symm
    · rintro x rfl
      have hx := hc x List.mem_cons_self
      rw [spread, if_pos rfl, List.flatMap_cons, List.flatMap_nil] at h
      cases h with
      | cons k1 h => cases h with
        | cons k2 h => cases h with
          | cons k3 h =>
            cases h
            rename_i r1 r2 r3
            have e1 := (hS _ _ k1).trans (protocol_retag hx (by decide))
            have e2 := (hS _ _ k2).trans (protocol_retag hx (by decide))
            have e3 := (hS _ _ k3).trans (protocol_retag hx (by decide))
            refine ⟨r1, k1, e1, (.inr ⟨h0, (fun h => nomatch h), [], r1, [r2, r3], rfl, rfl, e1, fun s hs => ?_⟩)⟩
            rcases List.mem_cons.1 hs with rfl | hs
            · rw [e2]; decide
            · rw [List.mem_singleton.1 hs, e3]; decide
  · have hz : askedProtocol env proto ≠ 0 := by omega
    rw [spread, if_neg hz] at h
    rw [h2]
    constructor
    · rintro hne r (⟨s, rfl, _⟩ | ⟨h3, _⟩)
      · have := each_length h
        rw [List.length_map, List.length_singleton] at this
        exact hne this
      · exact h0 h3
    · rintro x rfl
      cases h with
      | cons k1 h =>
        cases h
        rename_i r1
        exact ⟨r1, k1, (hS _ _ k1).trans (protocol_retag (hc x List.mem_cons_self) (by omega)), .inl ⟨r1, rfl, rfl⟩⟩

theorem holds_retag {n : Int} {x : AddrInfo} {s : SockaddrIn6} (h : Spec.Holds (retag n x) s) : Spec.Holds x s := by
  cases x <;> exact h

theorem not_picked (henv : GlibcAnswers env) {a : Str} {p' : Parser} {rs : List Range}
    (h : Parser.parse env a (ownParser env d port proto mask) = (p', .ok rs)) (hno : ∀ r, ¬ Picks proto rs r) :
    Parser.stringToAddr env a d port proto mask = .throw .invalidArgument := by
  rcases C68_outcome env (glibc_safe henv) a d port proto mask with ⟨r, hr⟩ | hr
  · obtain ⟨_, l, h1, h2⟩ := (C68_own_parser env (glibc_safe henv) a d port proto mask r).1 hr
    rw [h] at h1
    cases h1
    exact absurd h2 (hno r)
  · exact hr

theorem picks_nil (r : Addr) : ¬ Picks proto [] r := by
  rintro (⟨s, h, _⟩ | ⟨_, _, before, s, after, h, _⟩)
  · cases h
  · cases before <;> cases h

end

/-! ### C153 -/

/-- C153: the name of a host with one address is converted to this address, that of a host with none or several is refused. -/
theorem C153_found (env : ParseEnv) (henv : GlibcAnswers env) (a d : Str) (port : Int) (proto : Str) (hacc : Acceptable env d port proto)
    (hp : TcpOrUdp env proto) (ha : a ≠ []) (u q : Str) (hq : Question (ownParser env d port proto false) a u q) (found : List AddrInfo)
    (hf : HostHas env proto (ownParser env d port proto false) u q found) :
    (found.length ≠ 1 → Parser.stringToAddr env a d port proto false = .throw .invalidArgument)
      ∧ ∀ x, found = [x] → ∃ r, Parser.stringToAddr env a d port proto false = .ok r
          ∧ HostAddr u q (givenProtocol env proto) x r ∧ ip r.getMask = 2 ^ 128 - 1 := by
  obtain ⟨t, ht, hasks, hr⟩ := hq
  obtain ⟨p', rs, h1, h2, _⟩ := C92_found env _ a t u q _ (own_looksUp hacc ha) ht hasks hr hf.2 (answer_safe (glibc_safe henv) hf.2)
  rw [List.filter_eq_self.2 (spread_usable hf.1 _)] at h2
  obtain ⟨h3, h4⟩ := picks_found (fun x r h => h.toStands.protocol) hp hf.1 h2
  refine ⟨fun hne => not_picked henv h1 (h3 hne), fun x hx => ?_⟩
  obtain ⟨s, k1, k2, k3⟩ := h4 x hx
  exact ⟨s.lo, (C68_own_parser env (glibc_safe henv) a d port proto false s.lo).2 ⟨hacc, rs, by rw [h1], k3⟩,
    ⟨holds_retag k1.holds, k2, k1.hostname, k1.portDefined⟩, k1.mask⟩

/-- C153: a host which is not known is refused. -/
theorem C153_unknown (env : ParseEnv) (henv : GlibcAnswers env) (a d : Str) (port : Int) (proto : Str) (ha : a ≠ []) (u q : Str)
    (hacc : Acceptable env d port proto) (hq : Question (ownParser env d port proto false) a u q) (n e : Int)
    (hl : answerTo env (ownParser env d port proto false) u q = .error n e) :
    Parser.stringToAddr env a d port proto false = .throw .invalidArgument := by
  obtain ⟨t, ht, hasks, hr⟩ := hq
  obtain ⟨p', h1, _⟩ := C92_unknown env _ a t u q n e (own_looksUp hacc ha) ht hasks hr hl
  exact not_picked henv h1 picks_nil

/-- C153: a text is converted exactly if the parameters are acceptable and it names a host with one address. -/
theorem C153_iff (env : ParseEnv) (henv : GlibcAnswers env) (a d : Str) (port : Int) (proto : Str) (hp : TcpOrUdp env proto) (ha : a ≠ []) :
    (∃ r, Parser.stringToAddr env a d port proto false = .ok r)
      ↔ Acceptable env d port proto
        ∧ ∃ u q x, Question (ownParser env d port proto false) a u q ∧ HostHas env proto (ownParser env d port proto false) u q [x] := by
  constructor
  · rintro ⟨r, hr⟩
    obtain ⟨hacc, l, h1, h2⟩ := (C68_own_parser env (glibc_safe henv) a d port proto false r).1 hr
    refine ⟨hacc, ?_⟩
    by_cases hq : ∃ u q, Question (ownParser env d port proto false) a u q
    · obtain ⟨u, q, hq⟩ := hq
      cases hl : answerTo env (ownParser env d port proto false) u q with
      | error n e => rw [C153_unknown env henv a d port proto ha u q hacc hq n e hl] at hr; cases hr
      | list l' =>
        obtain ⟨found, hf⟩ := host_has henv hp hacc hl
        by_cases h3 : found.length = 1
        · obtain ⟨x, rfl⟩ := List.length_eq_one_iff.1 h3
          exact ⟨u, q, x, hq, hf⟩
        · rw [(C153_found env henv a d port proto hacc hp ha u q hq found hf).1 h3] at hr
          cases hr
    · obtain ⟨p', h3, _⟩ := C92_refused env _ a _ (own_looksUp hacc ha) (trims_trim a) fun ⟨u, q, h4, h5⟩ => hq ⟨u, q, _, trims_trim a, h4, h5⟩
      rw [h3] at h1
      cases h1
      exact absurd h2 (picks_nil r)
  · rintro ⟨hacc, u, q, x, hq, hf⟩
    obtain ⟨r, hr, _⟩ := (C153_found env henv a d port proto hacc hp ha u q hq [x] hf).2 x rfl
    exact ⟨r, hr⟩

/-- C153: with masks allowed, the name of a host with one address followed by a number of bits which fits it is converted to this address with that
mask; with another number of addresses or of bits it is refused. -/
theorem C153_masked (env : ParseEnv) (henv : GlibcAnswers env) (a d : Str) (port : Int) (proto : Str) (hacc : Acceptable env d port proto)
    (hp : TcpOrUdp env proto) (ha : a ≠ []) (t e m u q : Str) (ht : Trims a t) (hcut : CutMask t e m) (hn : ¬ LeftOut e)
    (hasks : Asks (ownParser env d port proto true) e u q) (hm0 : m ≠ []) (hm : ∀ c ∈ m, c.isDigit = true) (found : List AddrInfo)
    (hf : HostHas env proto (ownParser env d port proto true) u q found) :
    (∀ x, found = [x] → Nat.ofDigitChars 10 m 0 ≤ answerBits (ownParser env d port proto true) e x →
        ∃ r, Parser.stringToAddr env a d port proto true = .ok r ∧ HostAddr u q (givenProtocol env proto) x r
          ∧ ip r.getMask = prefixMask (128 - answerBits (ownParser env d port proto true) e x + Nat.ofDigitChars 10 m 0))
      ∧ ((∀ x, found = [x] → answerBits (ownParser env d port proto true) e x < Nat.ofDigitChars 10 m 0) →
          Parser.stringToAddr env a d port proto true = .throw .invalidArgument) := by
  have hbits : ∀ (k : Int) (x : AddrInfo), answerBits (ownParser env d port proto true) e (retag k x) = answerBits (ownParser env d port proto true) e x := by
    intro k x
    cases x <;> rfl
  obtain ⟨rs, n, ⟨p', h1, _⟩, h2, h3, h4⟩ := C131_networks env _ a t e m u q _ (own_looksUpMask hacc ha) ht hcut hn hasks (.inl (own_required hacc)) hm0 hm hf.2
    (answer_safe (glibc_safe henv) hf.2)
  have husable := spread_usable hf.1 (askedProtocol env proto)
  rw [List.filter_eq_self.2 husable] at h3
  have hz := tooShort_none (p := ownParser env d port proto true) (e := e) (n := Nat.ofDigitChars 10 m 0) (l := spread (askedProtocol env proto) found)
  rw [← h2] at hz
  have hmem : ∀ y ∈ spread (askedProtocol env proto) found, ∃ x ∈ found, answerBits (ownParser env d port proto true) e y = answerBits (ownParser env d port proto true) e x := by
    intro y hy
    rw [spread] at hy
    split at hy
    · obtain ⟨x, hx, hy⟩ := List.mem_flatMap.1 hy
      simp only [List.mem_cons, List.not_mem_nil, or_false] at hy
      rcases hy with rfl | rfl | rfl <;> exact ⟨x, hx, hbits _ x⟩
    · obtain ⟨x, hx, rfl⟩ := List.mem_map.1 hy
      exact ⟨x, hx, hbits _ x⟩
  constructor
  · rintro x rfl hle
    have hn0 : n = 0 := hz.2 fun y hy => ⟨husable y hy, by
      obtain ⟨x', hx', hb⟩ := hmem y hy
      rw [List.mem_singleton.1 hx'] at hb
      omega⟩
    obtain ⟨_, k⟩ := picks_found (fun x r h => h.toStands.protocol) hp hf.1 (h3 hn0)
    obtain ⟨s, k1, k2, k3⟩ := k x rfl
    refine ⟨s.lo, (C68_own_parser env (glibc_safe henv) a d port proto true s.lo).2 ⟨hacc, rs, by rw [h1], k3⟩,
      ⟨holds_retag k1.holds, k2, k1.hostname, k1.portDefined⟩, ?_⟩
    rw [k1.mask, hbits]
  · intro hlt
    by_cases hn0 : n = 0
    · obtain ⟨k, _⟩ := picks_found (fun x r h => h.toStands.protocol) hp hf.1 (h3 hn0)
      refine not_picked henv h1 (k fun hlen => ?_)
      obtain ⟨x, rfl⟩ := List.length_eq_one_iff.1 hlen
      obtain ⟨y, hy⟩ : ∃ y, y ∈ spread (askedProtocol env proto) [x] := by
        rw [spread]
        split
        · exact ⟨_, List.mem_cons_self⟩
        · exact ⟨_, List.mem_cons_self⟩
      obtain ⟨x', hx', hb⟩ := hmem y hy
      rw [List.mem_singleton.1 hx'] at hb
      have h5 := (hz.1 hn0 y hy).2
      have h6 := hlt x rfl
      omega
    · rw [h4 hn0] at h1
      exact not_picked henv h1 picks_nil

/-- C153: with masks allowed, a name without a mask, or with an empty one, is converted as without them. -/
theorem C153_unmasked (env : ParseEnv) (henv : GlibcAnswers env) (a d : Str) (port : Int) (proto : Str) (hacc : Acceptable env d port proto)
    (hp : TcpOrUdp env proto) (ha : a ≠ []) (t e u q : Str) (ht : Trims a t) (hcut : CutMask t e []) (hn : ¬ LeftOut e)
    (hasks : Asks (ownParser env d port proto true) e u q) (found : List AddrInfo)
    (hf : HostHas env proto (ownParser env d port proto true) u q found) :
    (found.length ≠ 1 → Parser.stringToAddr env a d port proto true = .throw .invalidArgument)
      ∧ ∀ x, found = [x] → ∃ r, Parser.stringToAddr env a d port proto true = .ok r
          ∧ HostAddr u q (givenProtocol env proto) x r ∧ ip r.getMask = 2 ^ 128 - 1 := by
  have h := own_looksUpMask hacc (a := a) ha
  obtain ⟨hu, v6, h1⟩ := masked_entry (env := env) h ht hcut hn hasks
  obtain ⟨errs, rs, g1, g2, g3⟩ := Parser.bound_list h.lookup hu (.inl (own_required hacc)) v6 hf.2 (answer_safe (glibc_safe henv) hf.2)
  have husable := spread_usable hf.1 (askedProtocol env proto)
  rw [(bad_usable _).2 husable] at g2
  obtain rfl := List.eq_nil_of_length_eq_zero g2
  rw [List.filter_eq_self.2 husable] at g3
  have h2 : Parser.parseAddress env e [] [] (ownParser env d port proto true)
      = (Parser.emitAll [] (ownParser env d port proto true), .ok (Parser.asIpv4 (ownParser env d port proto true).config e, rs)) := by
    rw [h1, PM.bind_def, g1]
    rfl
  have h3 := parse_looksUpMask h ht hcut h2 (maskLoop_none rs (Parser.emitAll [] (ownParser env d port proto true)) (own_config hacc).mask4
    (own_config hacc).mask6)
  rw [Parser.emitAll_nil, if_pos rfl] at h3
  obtain ⟨k1, k2⟩ := picks_found (fun x r h => h.2.2.protocol) hp hf.1 g3
  refine ⟨fun hne => not_picked henv h3 (k1 hne), fun x hx => ?_⟩
  obtain ⟨s, j1, j2, j3⟩ := k2 x hx
  exact ⟨s.lo, (C68_own_parser env (glibc_safe henv) a d port proto true s.lo).2 ⟨hacc, rs, by rw [h3], j3⟩,
    ⟨holds_retag j1.2.2.holds, j2, j1.2.2.hostname, j1.2.2.portDefined⟩, j1.2.2.mask⟩

/-- C153: with masks allowed, a text is converted exactly if it names a host with one address, followed by no mask or by a number of bits which fits
this address. -/
theorem C153_masked_iff (env : ParseEnv) (henv : GlibcAnswers env) (a d : Str) (port : Int) (proto : Str) (hp : TcpOrUdp env proto) (ha : a ≠ [])
    (hnul : '\x00' ∉ a) (hn : ∀ t e m, Trims a t → CutMask t e m → ¬ LeftOut e) :
    (∃ r, Parser.stringToAddr env a d port proto true = .ok r)
      ↔ Acceptable env d port proto ∧ ∃ t e m u q x, Trims a t ∧ CutMask t e m ∧ Asks (ownParser env d port proto true) e u q
        ∧ HostHas env proto (ownParser env d port proto true) u q [x] ∧ FitsMask (PortsAllowed (ownParser env d port proto true)) e m x := by
  constructor
  · rintro ⟨r, hr⟩
    obtain ⟨hacc, l, h1, h2⟩ := (C68_own_parser env (glibc_safe henv) a d port proto true r).1 hr
    refine ⟨hacc, ?_⟩
    have ht := trims_trim a
    obtain ⟨e, m, hcut⟩ := cut_exists _
    have hne := hn _ e m ht hcut
    have h := own_looksUpMask hacc (a := a) ha
    have none_of {n : Nat} (hR : Reads env (ownParser env d port proto true) a [] n) : False := by
      obtain ⟨p', h3, _⟩ := hR
      rw [h3] at h1
      cases h1
      exact picks_nil r h2
    by_cases hq : ∃ u q, Asks (ownParser env d port proto true) e u q
    · obtain ⟨u, q, hq⟩ := hq
      cases hl : answerTo env (ownParser env d port proto true) u q with
      | error n c => exact (none_of (C131_unknown env _ a _ e m u q n c h ht hcut hne hq (.inl (own_required hacc)) hl)).elim
      | list l' =>
        obtain ⟨found, hf⟩ := host_has henv hp hacc hl
        by_cases hm0 : m = []
        · subst hm0
          by_cases h3 : found.length = 1
          · obtain ⟨x, rfl⟩ := List.length_eq_one_iff.1 h3
            exact ⟨_, e, [], u, q, x, ht, hcut, hq, hf, .inl rfl⟩
          · rw [(C153_unmasked env henv a d port proto hacc hp ha _ e u q ht hcut hne hq found hf).1 h3] at hr
            cases hr
        · by_cases hm : ∀ c ∈ m, c.isDigit = true
          · by_cases h3 : ∃ x, found = [x] ∧ Nat.ofDigitChars 10 m 0 ≤ answerBits (ownParser env d port proto true) e x
            · obtain ⟨x, rfl, h3⟩ := h3
              exact ⟨_, e, m, u, q, x, ht, hcut, hq, hf, (fits_bits hm0 hm x).2 h3⟩
            · rw [(C153_masked env henv a d port proto hacc hp ha _ e m u q ht hcut hne hq hm0 hm found hf).2
                fun x hx => Nat.lt_of_not_le fun h4 => h3 ⟨x, hx, h4⟩] at hr
              cases hr
          · have hm' : ∃ c ∈ m, c.isDigit = false := by
              refine Classical.byContradiction fun h' => hm fun c hc => ?_
              cases hd : c.isDigit with
              | true => rfl
              | false => exact absurd ⟨c, hc, hd⟩ h'
            exact (none_of (C131_not_number env _ a _ e m u q l' h ht hcut hne hq (.inl (own_required hacc)) (by simp [own_flag hacc])
              (fun h' => hnul (trims_mem ht _ ((cutMask_mem hcut).2 _ h'))) hm' hl (answer_safe (glibc_safe henv) hl))).elim
    · exact (none_of (masked_refused (env := env) h ht hcut hne fun ⟨u, q, h3, _⟩ => hq ⟨u, q, h3⟩)).elim
  · rintro ⟨hacc, t, e, m, u, q, x, ht, hcut, hq, hf, hfit⟩
    have hne := hn t e m ht hcut
    by_cases hm0 : m = []
    · subst hm0
      obtain ⟨r, hr, _⟩ := (C153_unmasked env henv a d port proto hacc hp ha t e u q ht hcut hne hq [x] hf).2 x rfl
      exact ⟨r, hr⟩
    · have hm : ∀ c ∈ m, c.isDigit = true := by
        rcases hfit with h | h
        · exact absurd h hm0
        · exact h.1
      obtain ⟨r, hr, _⟩ := (C153_masked env henv a d port proto hacc hp ha t e m u q ht hcut hne hq hm0 hm [x] hf).1 x rfl ((fits_bits hm0 hm x).1 hfit)
      exact ⟨r, hr⟩

/-! ### Hosts with one and with two addresses -/

theorem dualEnv_glibc : GlibcAnswers dualEnv := by
  intro node service hint l h
  have h : (if node = "localhost".toList then
      GaiAnswer.list (spread hint [.inet sizeofIn 0 { family := AF_INET, port := 0, addr := #v[127, 0, 0, 1], zero := Vector.replicate 8 0 },
        .inet6 sizeofIn6 0 { family := AF_INET6, port := 0, flowinfo := 0, addr := #v[0, 0, 0, 0, 0, 0, 0, 0, 0, 0, 0, 0, 0, 0, 0, 1], scope := 0 }])
    else .error (-2) 0) = .list l := h
  split at h
  · cases h
    refine ⟨_, fun x hx => ?_, rfl⟩
    rcases List.mem_cons.1 hx with rfl | hx
    · exact ⟨rfl, rfl⟩
    · rw [List.mem_singleton.1 hx]
      exact ⟨rfl, rfl⟩
  · cases h

theorem none_acceptable (env : ParseEnv) : Acceptable env [] (-1) [] := ⟨(fun h => nomatch h), by decide, fun h => absurd rfl h⟩

theorem none_tcpOrUdp (env : ParseEnv) : TcpOrUdp env [] := fun h => absurd rfl h

-- C153_found: a host with one address.
example : ∃ r, Parser.stringToAddr hostsEnv "gate".toList [] (-1) [] false = .ok r ∧ r.protocol = 6 ∧ r.hostname = "gate".toList := by
  obtain ⟨r, h1, h2, _⟩ := (C153_found hostsEnv hostsEnv_glibc "gate".toList [] (-1) [] (none_acceptable _) (none_tcpOrUdp _) (by decide) "gate".toList []
    ⟨_, trims_self (by decide) (by decide), .name (by decide) (by decide) (by decide), .inl (own_required (none_acceptable _))⟩
    [.inet sizeofIn 0 { family := AF_INET, port := 0x5000, addr := #v[10, 0, 0, 1], zero := Vector.replicate 8 0 }]
    ⟨fun x hx => by rw [List.mem_singleton.1 hx]; exact ⟨rfl, rfl⟩, by decide +kernel⟩).2 _ rfl
  exact ⟨r, h1, h2.protocol, h2.hostname⟩

-- C153_found: a host with two addresses.
example : Parser.stringToAddr dualEnv "localhost".toList [] (-1) [] false = .throw .invalidArgument :=
  (C153_found dualEnv dualEnv_glibc "localhost".toList [] (-1) [] (none_acceptable _) (none_tcpOrUdp _) (by decide) "localhost".toList []
    ⟨_, trims_self (by decide) (by decide), .name (by decide) (by decide) (by decide), .inl (own_required (none_acceptable _))⟩
    [.inet sizeofIn 0 { family := AF_INET, port := 0, addr := #v[127, 0, 0, 1], zero := Vector.replicate 8 0 },
      .inet6 sizeofIn6 0 { family := AF_INET6, port := 0, flowinfo := 0, addr := #v[0, 0, 0, 0, 0, 0, 0, 0, 0, 0, 0, 0, 0, 0, 0, 1], scope := 0 }]
    ⟨fun x hx => by
      rcases List.mem_cons.1 hx with rfl | hx
      · exact ⟨rfl, rfl⟩
      · rw [List.mem_singleton.1 hx]
        exact ⟨rfl, rfl⟩, by decide +kernel⟩).1 (by decide)

-- C153_masked: the network around a host.
example : ∃ r, Parser.stringToAddr hostsEnv "gate/24".toList [] (-1) [] true = .ok r ∧ ip r.getMask = prefixMask 120 := by
  obtain ⟨ha, hw, hsl, hn⟩ := bareHost_asks (p := ownParser hostsEnv [] (-1) [] true) (u := "gate".toList) ⟨by decide, by decide⟩
  obtain ⟨r, h1, _, h2⟩ := (C153_masked hostsEnv hostsEnv_glibc "gate/24".toList [] (-1) [] (none_acceptable _) (none_tcpOrUdp _) (by decide)
    "gate/24".toList "gate".toList "24".toList "gate".toList [] (trims_self (by decide) (by decide)) ⟨hsl, .inr rfl⟩ hn ha (by decide) (by decide)
    [.inet sizeofIn 0 { family := AF_INET, port := 0x5000, addr := #v[10, 0, 0, 1], zero := Vector.replicate 8 0 }]
    ⟨fun x hx => by rw [List.mem_singleton.1 hx]; exact ⟨rfl, rfl⟩, by decide +kernel⟩).1 _ rfl (by
      unfold answerBits isV4 inBlock
      decide +kernel)
  refine ⟨r, h1, h2.trans (congrArg prefixMask ?_)⟩
  unfold answerBits isV4 inBlock
  decide +kernel

end Verif
