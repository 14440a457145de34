import Verif.Lemmas.ParserProtocol
import Verif.Props.LookupLanguage

/-!
# C93: the protocol of the addresses returned
-/

namespace Verif

open Spec

/-! ### Specification -/

/-- `getaddrinfo()` only gives TCP addresses when asked for TCP, and UDP addresses when asked for UDP. -/
def HintObeyed (env : ParseEnv) : Prop :=
  ∀ node service hint l, env.getaddrinfo node service false hint = .list l → hint = IPPROTO_TCP ∨ hint = IPPROTO_UDP →
    ∀ x ∈ l, answerProtocol x = hint ∨ noAddressFamily x = true

/-- The address is one of the two bounds of the range. -/
def IsBound (a : Addr) (r : Range) : Prop := (r.hasFrom = true ∧ a = r.lo) ∨ (r.hasTo = true ∧ a = r.hi)

/-! ### Theorems -/

theorem bound_kept {Q : Int → Prop} {r : Range} {a : Addr} (h : Parser.Kept Q r) (ha : IsBound a r) : Q a.protocol := by
  rcases ha with ⟨h1, rfl⟩ | ⟨h1, rfl⟩
  · exact h.2.1 h1
  · exact h.2.2 h1

theorem known_value {n : Int} (h : KnownProtocol n) : (if n = -1 then 6 else n) = 0 ∨ (if n = -1 then 6 else n) = 6 ∨ (if n = -1 then 6 else n) = 17 := by
  rcases h with rfl | rfl | rfl | rfl <;> decide

/-- C93: the addresses returned are IP, TCP or UDP addresses, whatever the name service answers. -/
theorem C93_known (env : ParseEnv) (p : Parser) (inp : Str) (l : List Range) (h : (Parser.parse env inp p).2 = .ok l) :
    ∀ r ∈ l, ∀ a, IsBound a r → a.protocol = 0 ∨ a.protocol = 6 ∨ a.protocol = 17 := by
  intro r hr a ha
  refine bound_kept (Q := fun n => n = 0 ∨ n = 6 ∨ n = 17) (Parser.kept_parse ⟨fun _ h => known_value h, fun _ _ _ _ _ x _ => ?_⟩ h r hr) ha
  cases x with
  | inet _ _ _ => exact known_value
  | inet6 _ _ _ => exact known_value
  | other _ => trivial

/-- C93: without lookups, the addresses returned have the protocol of the parser, and are TCP addresses when it has none. -/
theorem C93_numeric (env : ParseEnv) (p : Parser) (inp : Str) (l : List Range) (hf : p.config.flags .addressLookup = false)
    (h : (Parser.parse env inp p).2 = .ok l) :
    ∀ r ∈ l, ∀ a, IsBound a r → a.protocol = if p.config.protocol = -1 then IPPROTO_TCP else p.config.protocol := by
  intro r hr a ha
  refine bound_kept (Q := fun n => n = if p.config.protocol = -1 then 6 else p.config.protocol)
    (Parser.kept_parse (Q := fun n => n = if p.config.protocol = -1 then 6 else p.config.protocol) ⟨fun _ _ => rfl, fun hf' => ?_⟩ h r hr) ha
  rw [hf] at hf'
  cases hf'

/-- C93: with TCP or UDP asked for, only addresses of this protocol are returned, with lookups and without them. -/
theorem C93_asked (env : ParseEnv) (p : Parser) (inp : Str) (l : List Range) (henv : HintObeyed env)
    (hp : p.config.protocol = IPPROTO_TCP ∨ p.config.protocol = IPPROTO_UDP) (h : (Parser.parse env inp p).2 = .ok l) :
    ∀ r ∈ l, ∀ a, IsBound a r → a.protocol = p.config.protocol := by
  have hne : p.config.protocol ≠ -1 := by
    rcases hp with e | e <;> rw [e] <;> decide
  intro r hr a ha
  refine bound_kept (Q := fun n => n = p.config.protocol) (Parser.kept_parse (Q := fun n => n = p.config.protocol) ⟨fun _ _ => if_neg hne, fun _ node service l' hl x hx => ?_⟩ h r hr) ha
  rw [Parser.hintProtocol, if_pos hp] at hl
  have hx := henv _ _ _ _ hl hp x hx
  cases x with
  | inet _ _ _ => exact fun _ => hx.resolve_right Bool.false_ne_true
  | inet6 _ _ _ => exact fun _ => hx.resolve_right Bool.false_ne_true
  | other _ => trivial

/-- The GNU C library does. -/
theorem glibc_obeys {env : ParseEnv} (h : GlibcAnswers env) : HintObeyed env := by
  intro node service hint l hl hh x hx
  have h0 : hint ≠ 0 ∧ hint ≠ -1 := by rcases hh with e | e <;> rw [e] <;> decide
  obtain ⟨found, _, rfl⟩ := h node service hint l hl
  rw [spread, if_neg h0.1, List.mem_map] at hx
  obtain ⟨y, _, rfl⟩ := hx
  cases y with
  | inet _ _ _ => exact .inl (if_neg h0.2)
  | inet6 _ _ _ => exact .inl (if_neg h0.2)
  | other _ => exact .inr rfl

theorem safe_retag {n : Int} {x : AddrInfo} (hn : KnownProtocol n) (h : CompleteAnswer x) : SafeAnswer (retag n x) := by
  cases x with
  | inet len _ _ => exact fun _ => ⟨h.2, hn⟩
  | inet6 len _ _ => exact fun _ => ⟨h.2, hn⟩
  | other _ => exact h.elim

theorem each_map {α β γ : Type} {R : α → β → Prop} {f : α → γ} {g : β → γ} (h : ∀ a b, R a b → g b = f a) {l : List α} {l' : List β}
    (he : Each R l l') : l'.map g = l.map f := by
  induction he with
  | nil => rfl
  | cons h1 _ ih => rw [List.map_cons, List.map_cons, h _ _ h1, ih]

/-- C93: without a protocol, but also with `IPPROTO_IP` (or any protocol other than TCP and UDP), a name which is looked up gives three
addresses for each address the GNU C library finds: a TCP address, a UDP address and an IP address. -/
theorem C93_unfiltered (env : ParseEnv) (p : Parser) (inp t u q : Str) (found : List AddrInfo) (h : LooksUp p inp) (ht : Trims inp t)
    (ha : Asks p t u q) (hq : p.config.flags .requiredPort = false ∨ q ≠ []) (hp : p.config.protocol ≠ IPPROTO_TCP ∧ p.config.protocol ≠ IPPROTO_UDP)
    (hc : ∀ x ∈ found, CompleteAnswer x) (hl : env.getaddrinfo (cstr u) (serviceAsked p q) false 0 = .list (spread 0 found)) :
    ∃ p' rs, Parser.parse env inp p = (p', .ok rs) ∧ (∀ r ∈ rs, r.hasFrom = true ∧ r.hasTo = false)
      ∧ rs.map (fun r => r.lo.protocol) = found.flatMap fun _ => [IPPROTO_TCP, IPPROTO_UDP, IPPROTO_IP] := by
  have hin : ∀ x ∈ spread 0 found, ∃ y ∈ found, x = retag 6 y ∨ x = retag 17 y ∨ x = retag 0 y := by
    intro x hx
    rw [spread, if_pos rfl, List.mem_flatMap] at hx
    simpa using hx
  have hus : ∀ x ∈ spread 0 found, usable x = true := by
    intro x hx
    obtain ⟨y, hy, e | e | e⟩ := hin x hx <;> rw [e] <;> exact usable_retag (hc y hy) _
  obtain ⟨p', rs, h1, h2, hz⟩ := C92_found env p inp t u q (spread 0 found) h ht ha hq
    (by rw [answerTo, if_neg (fun e => e.elim hp.1 hp.2)]; exact hl) (by
    intro x hx
    obtain ⟨y, hy, e | e | e⟩ := hin x hx <;> rw [e] <;> refine safe_retag ?_ (hc y hy)
    · exact .inr (.inr (.inl rfl))
    · exact .inr (.inr (.inr rfl))
    · exact .inr (.inl rfl))
  rw [List.filter_eq_self.2 hus] at h2
  refine ⟨p', rs, h1, ?_, ?_⟩
  · intro r hr
    obtain ⟨x, _, hx⟩ := each_mem h2 hr
    exact ⟨hx.hasFrom, hx.hasTo⟩
  · rw [each_map (f := answerProtocol) (fun a b hab => hab.protocol) h2, spread, if_pos rfl]
    clear h1 h2 hl hus hin hz
    induction found with
    | nil => rfl
    | cons x found ih =>
      have hx := hc x List.mem_cons_self
      rw [List.flatMap_cons, List.flatMap_cons, List.map_append, ih fun y hy => hc y (List.mem_cons_of_mem _ hy)]
      simp only [List.map_cons, List.map_nil]
      rw [protocol_retag hx (by decide), protocol_retag hx (by decide), protocol_retag hx (by decide)]
      rfl

/-! ### The protocol which is not a filter -/

/-- C93, as documented: once a protocol is set, only addresses of this protocol are returned. -/
def C93_claim : Prop :=
  ∀ (env : ParseEnv) (p : Parser) (inp : Str) (l : List Range), GlibcAnswers env → p.config.protocol ≠ -1 →
    (Parser.parse env inp p).2 = .ok l → ∀ r ∈ l, ∀ a, IsBound a r → a.protocol = p.config.protocol

/-- The parser of the call `set_protocol(IPPROTO_IP)`. -/
def ipParser : Parser := ParserOp.runAll [(serviceEnv, .setProtocol 0)] Parser.create

/-- C93 fails: with `IPPROTO_IP` the lookup of an address gives a TCP address first. -/
theorem C93_claim_fails : ¬ C93_claim := by
  intro h
  have hm : ∃ r l, (Parser.parse serviceEnv "10.0.0.1".toList ipParser).2 = .ok (r :: l) ∧ r.hasFrom = true ∧ r.lo.protocol = 6 := by
    have : (match (Parser.parse serviceEnv "10.0.0.1".toList ipParser).2 with
        | .ok (r :: _) => r.hasFrom && decide (r.lo.protocol = 6)
        | _ => false) = true := by decide +kernel
    revert this
    rcases (Parser.parse serviceEnv "10.0.0.1".toList ipParser).2 with l | e | w
    · cases l with
      | nil => exact fun h => nomatch h
      | cons r l =>
        intro h
        rw [Bool.and_eq_true] at h
        exact ⟨r, l, rfl, h.1, of_decide_eq_true h.2⟩
    · exact fun h => nomatch h
    · exact fun h => nomatch h
  obtain ⟨r, l, h1, h2, h3⟩ := hm
  have := h serviceEnv ipParser _ _ serviceEnv_glibc (by decide) h1 r List.mem_cons_self r.lo (.inl ⟨h2, rfl⟩)
  rw [h3] at this
  exact absurd this (by decide)

/-! ### Examples -/

theorem hostsEnv_glibc : GlibcAnswers hostsEnv := by
  intro node service hint l h
  have e : hostsEnv.getaddrinfo node service false hint = (if node = "gate".toList then
        .list (spread hint [.inet sizeofIn 0 { family := AF_INET, port := 0x5000, addr := #v[10, 0, 0, 1], zero := Vector.replicate 8 0 }])
      else .error (-2) 0) := rfl
  rw [e] at h
  split at h
  · cases h
    exact ⟨_, fun x hx => by rw [List.mem_singleton] at hx; rw [hx]; exact ⟨rfl, rfl⟩, rfl⟩
  · cases h

/-- The parser of the call `set_protocol(IPPROTO_UDP)`. -/
def udpParser : Parser := ParserOp.runAll [(serviceEnv, .setProtocol 17)] Parser.create

-- C93_asked: a name which is looked up for UDP.
example : ∃ r, (Parser.parse hostsEnv "gate".toList udpParser).2 = .ok [r] ∧ r.hasFrom = true ∧ r.lo.protocol = 17 := by
  have : (match (Parser.parse hostsEnv "gate".toList udpParser).2 with
      | .ok [r] => r.hasFrom
      | _ => false) = true := by decide +kernel
  revert this
  rcases h : (Parser.parse hostsEnv "gate".toList udpParser).2 with l | e | w
  · match l, h with
    | [], _ => exact fun h => nomatch h
    | [r], h =>
      exact fun hr => ⟨r, rfl, hr, C93_asked hostsEnv udpParser _ _ (glibc_obeys hostsEnv_glibc) (.inr (by decide)) h r
        List.mem_cons_self _ (.inl ⟨hr, rfl⟩)⟩
    | _ :: _ :: _, _ => exact fun h => nomatch h
  · exact fun h => nomatch h
  · exact fun h => nomatch h

/-- The parser of the calls `set_allow(ADDRESS_LOOKUP, false)` and `set_allow(ADDRESS_RANGE, true)`. -/
def plainRangeParser : Parser := ParserOp.runAll [(sampleEnv, .setAllow 5 false), (sampleEnv, .setAllow 6 true)] Parser.create

-- C93_numeric and C93_known: a range without lookups, for which no protocol is set.
example : ∃ r, (Parser.parse sampleEnv "10.0.0.1-10.0.0.9".toList plainRangeParser).2 = .ok [r] ∧ r.hasTo = true ∧ r.hi.protocol = 6 := by
  have : (match (Parser.parse sampleEnv "10.0.0.1-10.0.0.9".toList plainRangeParser).2 with
      | .ok [r] => r.hasTo
      | _ => false) = true := by decide +kernel
  revert this
  rcases h : (Parser.parse sampleEnv "10.0.0.1-10.0.0.9".toList plainRangeParser).2 with l | e | w
  · match l, h with
    | [], _ => exact fun h => nomatch h
    | [r], h =>
      exact fun hr => ⟨r, rfl, hr, (C93_numeric sampleEnv plainRangeParser _ _ (by decide) h r List.mem_cons_self _ (.inr ⟨hr, rfl⟩)).trans
        (by decide)⟩
    | _ :: _ :: _, _ => exact fun h => nomatch h
  · exact fun h => nomatch h
  · exact fun h => nomatch h

-- C93_unfiltered: three addresses for a name, with the parser made for IP.
example : ∃ p' rs, Parser.parse hostsEnv "gate".toList ipParser = (p', .ok rs) ∧ rs.map (fun r => r.lo.protocol) = [6, 17, 0] := by
  obtain ⟨p', rs, h1, _, h2⟩ := C93_unfiltered hostsEnv ipParser "gate".toList "gate".toList "gate".toList []
    [.inet sizeofIn 0 { family := AF_INET, port := 0x5000, addr := #v[10, 0, 0, 1], zero := Vector.replicate 8 0 }]
    { lookup := by decide
      mask := by decide
      range := .inl (by decide)
      one := ⟨by decide, fun x _ => by
        rw [separates, show ipParser.config.flags .multiAddressesCommas = false by decide,
          show ipParser.config.flags .multiAddressesSpaces = false by decide,
          show ipParser.config.flags .multiAddressesNewlines = false by decide]
        rfl, ⟨by decide, by decide⟩⟩
      sort := by unfold Unsorted; decide }
    (trims_self (by decide) (by decide)) (.name (by decide) (by decide) (by decide)) (.inl (by decide)) ⟨by decide, by decide⟩
    (fun x hx => by rw [List.mem_singleton] at hx; rw [hx]; exact ⟨rfl, rfl⟩) (by decide +kernel)
  exact ⟨p', rs, h1, h2⟩

end Verif
