import Verif.Lemmas.Language
import Verif.Props.ParserMask
import Verif.Props.ParserSource
import Verif.Props.ParserPrint

/-!
# Properties C79 and C80: the texts which the parser accepts without lookups; host names which are addresses
-/

namespace Verif

open Spec

/-- A parser which reads one address without lookups, and neither masks nor ranges. -/
structure ReadsOne (p : Parser) (inp : Str) : Prop where
  lookup : p.config.flags .addressLookup = false
  mask : p.config.flags .mask = false
  range : p.config.flags .addressRange = false ∨ '-' ∉ inp
  protocol : p.config.protocol = -1 ∨ p.config.protocol = IPPROTO_IP ∨ p.config.protocol = IPPROTO_TCP ∨ p.config.protocol = IPPROTO_UDP
  one : OneEntry p inp
  sort : Unsorted p

/-- The text without the white space around it. -/
def Trims (inp t : Str) : Prop :=
  ∃ x y, inp = x ++ t ++ y ∧ (∀ c ∈ x, c ∈ " \t\n\x0b\x0c\r".toList) ∧ (∀ c ∈ y, c ∈ " \t\n\x0b\x0c\r".toList)
    ∧ (∀ c, t.head? = some c → c ∉ " \t\n\x0b\x0c\r".toList) ∧ (∀ c, t.getLast? = some c → c ∉ " \t\n\x0b\x0c\r".toList)

/-- Ports are allowed. -/
def PortsAllowed (p : Parser) : Prop := p.config.flags .port = true ∨ p.config.flags .requiredPort = true

/-! ### The vocabulary above in terms of the model -/

theorem isSpace_mem (c : Char) : Parser.isSpace c = true ↔ c ∈ " \t\n\x0b\x0c\r".toList := by
  have : " \t\n\x0b\x0c\r".toList = [' ', '\t', '\n', '\x0b', '\x0c', '\r'] := rfl
  rw [this]
  simp [Parser.isSpace, or_assoc]

theorem trims_eq {inp t : Str} (h : Trims inp t) : Parser.trimString inp = t := by
  obtain ⟨x, y, rfl, hx, hy, h1, h2⟩ := h
  have hs : ∀ c, c ∉ " \t\n\x0b\x0c\r".toList → Parser.isSpace c = false := fun c hc => by
    cases h : Parser.isSpace c with
    | false => rfl
    | true => exact absurd ((isSpace_mem c).1 h) hc
  have ht := Parser.trimString_self (fun c hc => hs c (h1 c hc)) (fun c hc => hs c (h2 c hc))
  rw [Parser.trimString_eq, List.append_assoc, List.dropWhile_append_of_pos (fun c hc => (isSpace_mem c).2 (hx c hc))]
  have e : Parser.trimString (t ++ y) = t := by
    rw [← Parser.trimString_rtrim, Parser.rtrim_append_space _ _ (fun c hc => (isSpace_mem c).2 (hy c hc)), Parser.trimString_rtrim, ht]
  exact e

theorem parse_readsOne {env : ParseEnv} {p : Parser} {inp t : Str} (h : ReadsOne p inp) (ht : Trims inp t) {q : Parser} {v4 : Bool}
    {l : List Range} (hp : Parser.parseAddress env t [] [] p = (q, .ok (v4, l))) : Parser.parse env inp p = (q, .ok l) := by
  rw [parse_one_unsorted env inp p h.one h.sort, Parser.parseCidr, PM.config_bind, trims_eq ht]
  dsimp only
  rw [if_neg (by rw [h.mask]; exact Bool.false_ne_true), PM.bind_of_ok hp]
  rfl

theorem trims_mem {inp t : Str} (h : Trims inp t) : ∀ c ∈ t, c ∈ inp := by
  obtain ⟨x, y, rfl, _⟩ := h
  intro c hc
  simp [hc]

/-! ### C79 -/

/-- C79: an entry of the language is accepted without an error as the one address, port and host name it writes. -/
theorem C79_accepted (env : ParseEnv) (p : Parser) (inp t u q : Str) (n port : Nat) (h : ReadsOne p inp) (ht : Trims inp t)
    (he : Entry (PortsAllowed p) t u q) (ha : AddressOf u n) (hq : PortOf env p.config q port) :
    ∃ r, Parser.parse env inp p = (p, .ok [r]) ∧ r.hasFrom = true ∧ r.hasTo = false ∧ ip r.lo.getIpv6.addr = n ∧ r.lo.getPort = port
      ∧ ip r.lo.getMask = 2 ^ 128 - 1 ∧ r.lo.hostname = u ∧ (r.lo.portDefined = true ↔ q ≠ []) := by
  obtain ⟨v4, r, b, h1, h2, h3⟩ := Parser.parseAddress_accepts (env := env) ⟨h.lookup, h.protocol⟩ he ha hq
  refine ⟨r, parse_readsOne h ht h1, h3.hasFrom, h3.hasTo, ?_, ?_, ?_, h3.hostname, by rw [h3.portDefined, decide_eq_true_eq]⟩
  · rw [Addr.getIpv6, h3.address]
    exact h2
  · rw [Addr.getPort, h3.address]
    show (swap16 (swap16 (BitVec.ofNat 16 port))).toNat = port
    rw [swap16_swap16, BitVec.toNat_ofNat, Nat.mod_eq_of_lt (by have := hq.1; omega)]
  · rw [Addr.getMask, h3.mask]
    decide

/-- C79: any other text is refused: no range, one more error. -/
theorem C79_refused (env : ParseEnv) (p : Parser) (inp t : Str) (h : ReadsOne p inp) (ht : Trims inp t) (hnul : '\x00' ∉ t)
    (hl : p.config.flags .requiredAddress = true ∨ ¬ LeftOut t)
    (hno : ¬ ∃ u q n port, Entry (PortsAllowed p) t u q ∧ AddressOf u n ∧ PortOf env p.config q port) :
    ∃ p', Parser.parse env inp p = (p', .ok []) ∧ p'.config = p.config ∧ p'.getErrorCount = p.getErrorCount + 1
      ∧ p'.hasErrors = true ∧ p.errorMessages <+: p'.errorMessages := by
  obtain ⟨v4, msg, h1⟩ := Parser.parseAddress_refuses (env := env) h.lookup hnul (h.range.imp_right fun h' h2 => h' (trims_mem ht _ h2)) hl
    (fun ⟨u, q, h1, n, port, h2, h3⟩ => hno ⟨u, q, n, port, h1, h2, h3⟩)
  refine ⟨_, parse_readsOne h ht h1, rfl, ?_, ?_, ?_⟩
  · simp [Parser.emitAll, Parser.getErrorCount]
  · simp [Parser.emitAll, Parser.hasErrors]
  · simp [Parser.emitAll, Parser.errorMessages, List.append_assoc]

/-- C79: the texts accepted are those of the language. -/
theorem C79_language_partial (env : ParseEnv) (p : Parser) (inp t : Str) (h : ReadsOne p inp) (ht : Trims inp t) (hnul : '\x00' ∉ t)
    (hl : p.config.flags .requiredAddress = true ∨ ¬ LeftOut t) :
    (∃ r, (Parser.parse env inp p).2 = .ok [r])
      ↔ ∃ u q n port, Entry (PortsAllowed p) t u q ∧ AddressOf u n ∧ PortOf env p.config q port := by
  constructor
  · rintro ⟨r, hr⟩
    refine Classical.byContradiction fun hno => ?_
    obtain ⟨p', h1, _⟩ := C79_refused env p inp t h ht hnul hl hno
    rw [h1] at hr
    cases hr
  · rintro ⟨u, q, n, port, he, ha, hq⟩
    obtain ⟨r, hr, _⟩ := C79_accepted env p inp t u q n port h ht he ha hq
    exact ⟨r, by rw [hr]⟩

theorem entry_inv {ports : Prop} {t u q : Str} (h : Entry ports t u q) :
    (t = u ∧ q = []) ∨ t = u ++ ':' :: q ∨ (t = '[' :: u ++ [']'] ∧ q = []) ∨ t = '[' :: u ++ ']' :: ':' :: q := by
  cases h with
  | bare4 _ => exact .inl ⟨rfl, rfl⟩
  | port4 _ _ _ => exact .inr (.inl rfl)
  | bare6 _ => exact .inl ⟨rfl, rfl⟩
  | bracket => exact .inr (.inr (.inl ⟨rfl, rfl⟩))
  | port6 _ => exact .inr (.inr (.inr rfl))

theorem entry_port {ports : Prop} {t u q q' : Str} (hu : u ≠ []) (hb : u.head? ≠ some '[') (h : Entry ports t u q)
    (h' : Entry ports t u q') : q = q' := by
  have n1 : ∀ x y : Str, u ++ x ≠ '[' :: y := fun x y e => by
    cases u with
    | nil => exact hu rfl
    | cons c u =>
      cases e
      exact hb rfl
  have n0 : ∀ y : Str, u ≠ '[' :: y := fun y e => n1 [] y (by rw [List.append_nil]; exact e)
  rcases entry_inv h with ⟨rfl, rfl⟩ | rfl | ⟨rfl, rfl⟩ | rfl <;> rcases entry_inv h' with ⟨e, e2⟩ | e | ⟨e, e2⟩ | e
  · exact e2.symm
  · exact absurd (List.self_eq_append_right.1 e) (List.cons_ne_nil _ _)
  · exact e2.symm
  · exact absurd e (n0 _)
  · exact absurd (List.self_eq_append_right.1 e.symm) (List.cons_ne_nil _ _)
  · exact (List.cons.inj (List.append_cancel_left e)).2
  · exact absurd e (n1 _ _)
  · exact absurd e (n1 _ _)
  · exact e2.symm
  · exact absurd e.symm (n1 _ _)
  · exact e2.symm
  · simp at e
  · exact absurd e.symm (n0 _)
  · exact absurd e.symm (n1 _ _)
  · simp at e
  · simpa using e

/-- C79: there is only one way to read a text of the language. -/
theorem C79_unambiguous (ports : Prop) (t u q u' q' : Str) (n n' : Nat) (he : Entry ports t u q) (ha : AddressOf u n)
    (he' : Entry ports t u' q') (ha' : AddressOf u' n') : u = u' ∧ q = q' ∧ n = n' := by
  have key : ∃ p : Parser, Parser.Numeric p ∧ (Parser.Ports p.config ↔ ports) ∧ p.config.flags .requiredPort = false ∧ p.config.defaultPort = -1 := by
    by_cases h : ports
    · exact ⟨sampleParser, ⟨by decide, by decide⟩, ⟨fun _ => h, fun _ => .inl (by decide)⟩, by decide, by decide⟩
    · exact ⟨ParserOp.runAll [(sampleEnv, .setAllow 7 false)] sampleParser, ⟨by decide, by decide⟩,
        ⟨fun h' => absurd h' (by unfold Parser.Ports; decide), fun h' => absurd h' h⟩, by decide, by decide⟩
  obtain ⟨p, hp, hports, hr, hd⟩ := key
  have hports : Parser.Ports p.config = ports := propext hports
  have hport : ∀ u q, Entry ports t u q → ∃ port, PortOf { sampleEnv with convert := fun _ => some 0 } p.config q port := by
    intro u q h
    refine ⟨0, by omega, ?_⟩
    by_cases hq : q ≠ []
    · rw [if_pos hq]
      refine ⟨?_, rfl⟩
      have hp : Parser.Ports p.config := by
        rw [hports]
        cases h with
        | bare4 _ => exact absurd rfl hq
        | port4 _ _ h => exact h
        | bare6 _ => exact absurd rfl hq
        | bracket => exact absurd rfl hq
        | port6 h => exact h
      exact hp
    · rw [if_neg hq, if_pos hd]
      exact ⟨hr, rfl⟩
  obtain ⟨port, h1⟩ := hport u q he
  obtain ⟨port', h1'⟩ := hport u' q' he'
  obtain ⟨v4, r, b, h2, h3, h4⟩ := Parser.parseAddress_accepts hp (hports ▸ he) ha h1
  obtain ⟨v4', r', b', h2', h3', h4'⟩ := Parser.parseAddress_accepts hp (hports ▸ he') ha' h1'
  rw [h2] at h2'
  have e : r = r' := by
    cases h2'
    rfl
  subst e
  have hu : u = u' := by rw [← h4.hostname, h4'.hostname]
  have hb : b = b' := by
    have := h4.address.symm.trans h4'.address
    exact congrArg SockaddrIn6.addr this
  subst hu hb
  refine ⟨rfl, ?_, by rw [← h3, h3']⟩
  exact entry_port (Parser.address_ne ha)
    (fun h => absurd (Parser.address_chars ha _ (List.mem_of_head? h)) (by decide)) he he'

/-! ### Examples and the claim -/

/-- C79, as stated: whatever the characters of the text. -/
def C79_claim : Prop :=
  ∀ (env : ParseEnv) (p : Parser) (inp t : Str), ReadsOne p inp → Trims inp t →
    (p.config.flags .requiredAddress = true ∨ ¬ LeftOut t) →
    ((∃ r, (Parser.parse env inp p).2 = .ok [r])
      ↔ ∃ u q n port, Entry (PortsAllowed p) t u q ∧ AddressOf u n ∧ PortOf env p.config q port)

theorem sampleParser_reads (inp : Str) (h : inp ≠ []) : ReadsOne sampleParser inp where
  lookup := by decide
  mask := by decide
  range := .inl (by decide)
  protocol := by decide
  one := ⟨h, fun x _ => by
    rw [separates, show sampleParser.config.flags .multiAddressesCommas = false by decide,
      show sampleParser.config.flags .multiAddressesSpaces = false by decide,
      show sampleParser.config.flags .multiAddressesNewlines = false by decide]
    rfl, ⟨by decide, by decide⟩⟩
  sort := by unfold Unsorted; decide

theorem one_hostname {x : Res (List Range)} {f : Range → Bool} (h : (match x with
    | .ok [r] => f r
    | _ => false) = true) : ∃ r, x = .ok [r] ∧ f r = true := by
  split at h
  · exact ⟨_, rfl, h⟩
  · cases h

theorem trims_self {t : Str} (h1 : ∀ c, t.head? = some c → c ∉ " \t\n\x0b\x0c\r".toList)
    (h2 : ∀ c, t.getLast? = some c → c ∉ " \t\n\x0b\x0c\r".toList) : Trims t t :=
  ⟨[], [], by simp, (fun _ h => nomatch h), (fun _ h => nomatch h), h1, h2⟩

/-- C79 is false as stated: what follows a null character is not read, and is kept in the host name. -/
theorem C79_claim_fails : ¬ C79_claim := by
  intro h
  obtain ⟨r, hr, _⟩ := one_hostname (x := (Parser.parse sampleEnv "1.2.3.4\x00.example.com".toList sampleParser).2) (f := fun r => decide (r.lo.hostname = "1.2.3.4\x00.example.com".toList))
    (show (match (Parser.parse sampleEnv "1.2.3.4\x00.example.com".toList sampleParser).2 with
      | .ok [r] => r.lo.hostname = "1.2.3.4\x00.example.com".toList
      | _ => false) = true by decide +kernel)
  obtain ⟨u, q, n, port, he, ha, _⟩ := (h sampleEnv sampleParser "1.2.3.4\x00.example.com".toList "1.2.3.4\x00.example.com".toList
    (sampleParser_reads _ (by decide)) (trims_self (by decide) (by decide)) (.inr (by unfold LeftOut; decide))).1 ⟨r, hr⟩
  have hu : '\x00' ∉ u := fun h => absurd (Parser.address_chars ha _ h) (by decide)
  rcases entry_inv he with ⟨e, _⟩ | e | ⟨e, _⟩ | e
  · rw [← e] at hu
    exact absurd hu (by decide)
  · exact absurd (show ':' ∈ "1.2.3.4\x00.example.com".toList by rw [e]; simp) (by decide)
  · cases e
  · cases e

theorem trims_examples : Trims " [::1]:80\t".toList "[::1]:80".toList ∧ Trims "1.2.3".toList "1.2.3".toList :=
  ⟨⟨" ".toList, "\t".toList, rfl, by decide, by decide, by decide, by decide⟩, trims_self (by decide) (by decide)⟩

/-- C79_accepted on a text with a port and white space. -/
example : ∃ r, Parser.parse sampleEnv " [::1]:80\t".toList sampleParser = (sampleParser, .ok [r]) ∧ ip r.lo.getIpv6.addr = 1
    ∧ r.lo.getPort = 80 ∧ r.lo.hostname = "::1".toList := by
  obtain ⟨r, h1, _, _, h2, h3, _, h4, _⟩ := C79_accepted sampleEnv sampleParser " [::1]:80\t".toList "[::1]:80".toList "::1".toList "80".toList 1 80
    (sampleParser_reads _ (by decide)) trims_examples.1 (Entry.port6 (u := "::1".toList) (q := "80".toList) (Or.inl (by decide)))
    (.inr ⟨by decide, .zip (p := []) (ps := []) (z := 7) (q := "1".toList) (qs := [1]) (.inl ⟨rfl, rfl⟩)
      (.inr (.one ⟨HexNum.snoc (t := []) (v := 0) (c := '1') (d := 1) .nil (.inl (by decide)), by decide, by decide⟩)) (by decide) (by decide)⟩)
    ⟨by decide, by rw [if_pos (by decide)]; exact ⟨.inl (by decide), by decide⟩⟩
  exact ⟨r, h1, h2, h3, h4⟩

/-- C79_refused on a text which is not an address. -/
example : ∃ p', Parser.parse sampleEnv "1.2.3".toList sampleParser = (p', .ok []) ∧ p'.getErrorCount = sampleParser.getErrorCount + 1 := by
  obtain ⟨p', h1, _, h2, _⟩ := C79_refused sampleEnv sampleParser "1.2.3".toList "1.2.3".toList (sampleParser_reads _ (by decide))
    trims_examples.2 (by decide) (.inr (by unfold LeftOut; decide)) (by
      rintro ⟨u, q, n, port, he, ha, hq⟩
      obtain ⟨r, hr, _⟩ := C79_accepted sampleEnv sampleParser _ _ u q n port (sampleParser_reads "1.2.3".toList (by decide))
        trims_examples.2 he ha hq
      have : (match (Parser.parse sampleEnv "1.2.3".toList sampleParser).2 with
        | .ok [] => true
        | _ => false) = true := by decide +kernel
      rw [hr] at this
      cases this)
  exact ⟨p', h1, h2⟩

/-! ### C80 -/

theorem isHostnameAnIp_iff (a : Addr) : a.isHostnameAnIp = true ↔ a.hostname = [] ∨ ∃ b, Writes a.hostname b := by
  rw [Addr.isHostnameAnIp]
  by_cases h : a.hostname = []
  · rw [if_pos h]
    exact ⟨fun _ => .inl h, fun _ => rfl⟩
  · rw [if_neg h, Bool.or_eq_true, Option.isSome_iff_exists, Option.isSome_iff_exists]
    constructor
    · rintro (⟨b, h1⟩ | ⟨b, h1⟩)
      · exact .inr ⟨_, .inl ⟨b, h1, rfl⟩⟩
      · cases h2 : Inet.pton4 (cstr a.hostname) with
        | some b4 => exact .inr ⟨_, .inl ⟨b4, h2, rfl⟩⟩
        | none => exact .inr ⟨b, .inr ⟨h2, h1⟩⟩
    · rintro (h1 | ⟨b, ⟨b4, h1, _⟩ | ⟨_, h1⟩⟩)
      · exact absurd h1 h
      · exact .inl ⟨_, h1⟩
      · exact .inr ⟨_, h1⟩

/-- C80: `is_hostname_an_ip()` is true exactly when the host name is empty or is the text of an address. -/
theorem C80_hostname_partial (a : Addr) (h : '\x00' ∉ a.hostname) :
    a.isHostnameAnIp = true ↔ a.hostname = [] ∨ ∃ n, AddressOf a.hostname n := by
  rw [isHostnameAnIp_iff]
  have hc : cstr a.hostname = a.hostname := cstr_noNul fun c hc e => h (e ▸ hc)
  refine or_congr Iff.rfl ⟨?_, ?_⟩
  · rintro ⟨b, hb⟩
    exact ⟨_, (Parser.writes_iff hc b).1 hb⟩
  · rintro ⟨n, hn⟩
    obtain ⟨b, _, hb⟩ := Parser.address_bytes hn
    exact ⟨b, hb⟩

/-- C80: without lookups, the host names of the addresses which the parser returns are all addresses. -/
theorem C80_parsed (env : ParseEnv) (inp : Str) (p : Parser) (l : List Range) (hl : p.config.flags .addressLookup = false)
    (h : (Parser.parse env inp p).2 = .ok l) :
    ∀ r ∈ l, (r.hasFrom = true → r.lo.isHostnameAnIp = true) ∧ (r.hasTo = true → r.hi.isHostnameAnIp = true) := by
  intro r hr
  obtain ⟨_, h1, h2⟩ := C45_sources env inp p l h r hr
  have key : ∀ a, Source env p.config inp a → a.isHostnameAnIp = true := by
    rintro a ⟨q, _, _, h3, _⟩
    rw [Denotes, if_neg (by rw [hl]; exact Bool.false_ne_true)] at h3
    exact (isHostnameAnIp_iff a).2 (.inr ⟨_, h3.1⟩)
  exact ⟨fun h => key _ (h1 h), fun h => key _ (h2 h)⟩

/-- C80, as stated: whatever the characters of the host name. -/
def C80_claim : Prop := ∀ a : Addr, a.isHostnameAnIp = true ↔ a.hostname = [] ∨ ∃ n, AddressOf a.hostname n

/-- C80 is false as stated: what follows a null character is ignored. -/
theorem C80_claim_fails : ¬ C80_claim := by
  intro h
  have h1 : ({ Addr.default with hostname := "1.2.3.4\x00.example.com".toList } : Addr).isHostnameAnIp = true := by decide +kernel
  rcases (h _).1 h1 with h2 | ⟨n, h2⟩
  · exact absurd h2 (by decide)
  · have := Parser.address_chars h2 '\x00' (by decide)
    exact absurd this (by decide)

example : ({ Addr.default with hostname := "::ffff:1.2.3.4".toList } : Addr).isHostnameAnIp = true
    ∧ ({ Addr.default with hostname := "www.example.com".toList } : Addr).isHostnameAnIp = false := by decide +kernel

end Verif
