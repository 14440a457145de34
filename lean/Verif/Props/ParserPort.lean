import Verif.Props.StringToAddr

/-!
# C71: ports which are not allowed
-/

namespace Verif

open Spec Parser

/-- Neither `ALLOW_PORT` nor `ALLOW_REQUIRED_PORT`. -/
def NoPorts (p : Parser) : Prop := p.config.flags .port = false ∧ p.config.flags .requiredPort = false

/-- One of the bounds of a range. -/
def BoundOf (a : Addr) (r : Range) : Prop := (r.hasFrom = true ∧ a = r.lo) ∨ (r.hasTo = true ∧ a = r.hi)

theorem bound_source {env : ParseEnv} {inp : Str} {p : Parser} {l : List Range} (h : (parse env inp p).2 = .ok l) {r : Range}
    (hr : r ∈ l) {a : Addr} (ha : BoundOf a r) : Source env p.config inp a := by
  obtain ⟨_, h1, h2⟩ := C45_sources env inp p l h r hr
  rcases ha with ⟨h3, h4⟩ | ⟨h3, h4⟩
  · exact h4 ▸ h1 h3
  · exact h4 ▸ h2 h3

/-- C71: without lookup, when ports are not allowed, no address ever comes with a port. -/
theorem C71_no_lookup (env : ParseEnv) (inp : Str) (p : Parser) (l : List Range) (hp : NoPorts p)
    (hf : p.config.flags .addressLookup = false) (h : (parse env inp p).2 = .ok l) :
    ∀ r ∈ l, ∀ a, BoundOf a r → a.portDefined = false ∧ a.getPort = 0 := by
  intro r hr a ha
  obtain ⟨q, _, h2, h3, h4⟩ := bound_source h hr ha
  have hq := (h4.1 hp.1 hp.2).1 hf
  rw [Denotes, if_neg (by rw [hf]; exact Bool.false_ne_true)] at h3
  constructor
  · rcases h2 with h2 | h2
    · exact absurd hq h2.2.1
    · exact h2.1
  · rcases h3.2 with h5 | h5
    · exact h5.2
    · exact absurd hq h5.1

/-- C71, with lookups: a port which is not allowed comes with no name in which there is a dot, unless this is the default
IPv6 address; there is a bracket in the text otherwise. What is missing is in `C71_claim`. -/
theorem C71_lookup_partial (env : ParseEnv) (inp : Str) (p : Parser) (l : List Range) (hp : NoPorts p)
    (h : (parse env inp p).2 = .ok l) (hb : ']' ∉ inp) :
    ∀ r ∈ l, ∀ a, BoundOf a r → '.' ∈ a.hostname → '.' ∉ p.config.defaultAddress6 → a.portDefined = false := by
  intro r hr a ha hdot hd
  obtain ⟨q, _, _, _, h4⟩ := bound_source h hr ha
  cases hw : a.portDefined with
  | false => rfl
  | true =>
    rcases (h4.1 hp.1 hp.2).2 hw with h5 | h5 | h5
    · exact absurd hdot h5
    · exact absurd h5 hb
    · rw [h5] at hdot
      split at hdot
      · exact absurd hdot (by decide)
      · exact absurd hdot hd

/-- C71: without a colon nothing is a port. -/
theorem C71_no_colon (env : ParseEnv) (inp : Str) (p : Parser) (l : List Range) (h : (parse env inp p).2 = .ok l) (hc : ':' ∉ inp) :
    ∀ r ∈ l, ∀ a, BoundOf a r → a.portDefined = false := by
  intro r hr a ha
  obtain ⟨q, _, h2, _, _⟩ := bound_source h hr ha
  rcases h2 with h2 | h2
  · exact absurd (h2.2.2.subset List.mem_cons_self) hc
  · exact h2.1

/-- C71, as stated: no text comes with a port when ports are not allowed. -/
def C71_claim : Prop :=
  ∀ (env : ParseEnv) (inp : Str) (p : Parser) (l : List Range), GlibcAnswers env → NoPorts p → (parse env inp p).2 = .ok l →
    ∀ r ∈ l, ∀ a, BoundOf a r → a.portDefined = false

/-- A name service which knows the name "localhost" as well. -/
def localEnv : ParseEnv :=
  { serviceEnv with
    getaddrinfo := fun node service numeric hint =>
      serviceEnv.getaddrinfo (if node = "localhost".toList then "127.0.0.1".toList else node) service numeric hint }

theorem localEnv_glibc : GlibcAnswers localEnv := fun _ _ _ _ h => serviceEnv_glibc _ _ _ _ h

/-- The parser of the calls `set_allow(PORT, false)` and `set_protocol("tcp")`. -/
def portlessParser : Parser := ParserOp.runAll [(serviceEnv, .setAllow 7 false), (serviceEnv, .setProtocolStr "tcp".toList)] Parser.create

theorem portlessParser_noPorts : NoPorts portlessParser := ⟨by decide, by decide⟩

/-- C71 fails: "localhost:80" gives a port though ports are not allowed (and "127.0.0.1:80" is refused). -/
theorem C71_claim_fails : ¬ C71_claim := by
  intro h
  have hm : ∃ r l, (parse localEnv "localhost:80".toList portlessParser).2 = .ok (r :: l) ∧ r.hasFrom = true ∧ r.lo.portDefined = true := by
    have : (match (parse localEnv "localhost:80".toList portlessParser).2 with
        | .ok (r :: _) => r.hasFrom && r.lo.portDefined
        | _ => false) = true := by decide +kernel
    revert this
    rcases (parse localEnv "localhost:80".toList portlessParser).2 with l | e | w
    · cases l with
      | nil => exact fun h => nomatch h
      | cons r l =>
        intro h
        exact ⟨r, l, rfl, Bool.and_eq_true_iff.1 h⟩
    · exact fun h => nomatch h
    · exact fun h => nomatch h
  obtain ⟨r, l, h1, h2, h3⟩ := hm
  have := h localEnv "localhost:80".toList portlessParser _ localEnv_glibc portlessParser_noPorts h1 r List.mem_cons_self r.lo (.inl ⟨h2, rfl⟩)
  rw [h3] at this
  cases this

-- The port is the one written, and the same text with a dot is refused.
example : (match (parse localEnv "localhost:80".toList portlessParser).2 with
    | .ok [r] => r.lo.getPort == 80
    | _ => false) = true := by decide +kernel
example : (match (parse localEnv "127.0.0.1:80".toList portlessParser).2 with
    | .ok l => l.length == 0
    | _ => false) = true := by decide +kernel

/-! ### The default port -/

theorem intStr_ne_nil (n : Int) : intStr n ≠ [] := by
  unfold intStr
  split
  · exact List.cons_ne_nil _ _
  · rw [decStr_dec]; exact Nat.toDigits_ne_nil

/-- C71: when ports are not allowed and there is no lookup, a default port makes the parser refuse everything. -/
theorem C71_default_refuses (env : ParseEnv) (inp : Str) (p : Parser) (l : List Range) (hp : NoPorts p)
    (hf : p.config.flags .addressLookup = false) (hd : p.config.defaultPort ≠ -1) (h : (parse env inp p).2 = .ok l) : l = [] := by
  cases l with
  | nil => rfl
  | cons r l =>
    obtain ⟨hdef, _⟩ := C45_sources env inp p _ h r List.mem_cons_self
    have : ∃ a, BoundOf a r := hdef.elim (fun h => ⟨_, .inl ⟨h, rfl⟩⟩) (fun h => ⟨_, .inr ⟨h, rfl⟩⟩)
    obtain ⟨a, ha⟩ := this
    obtain ⟨q, _, h2, _, h4⟩ := bound_source h List.mem_cons_self ha
    have hq := (h4.1 hp.1 hp.2).1 hf
    rcases h2 with h2 | h2
    · exact absurd hq h2.2.1
    · have := h2.2.2
      rw [if_neg hd, hq] at this
      exact absurd this.symm (intStr_ne_nil _)

/-- C71, as documented for the default port: it is the port of an address which is written without one. -/
def C71_default_claim : Prop :=
  ∀ (env : ParseEnv) (inp : Str) (p : Parser) (b : Bytes4), (∀ n : Nat, n ≤ 65535 → env.convert (dec n) = some (n : Int)) → NoPorts p → p.config.flags .addressLookup = false →
    0 ≤ p.config.defaultPort → p.config.defaultPort ≤ 65535 → p.config.protocol = 6 → Inet.pton4 inp = some b →
    ∃ r, (parse env inp p).2 = .ok [r]

/-- C71 fails for the default port: the address is refused since its default port "is not allowed". -/
theorem C71_default_claim_fails : ¬ C71_default_claim := by
  intro h
  have hp : NoPorts (ParserOp.runAll [(serviceEnv, .setAllow 5 false), (serviceEnv, .setDefaultPort 80)] portlessParser) :=
    ⟨by decide, by decide⟩
  obtain ⟨r, hr⟩ := h serviceEnv "10.0.0.1".toList (ParserOp.runAll [(serviceEnv, .setAllow 5 false), (serviceEnv, .setDefaultPort 80)] portlessParser)
    #v[10, 0, 0, 1] (fun n _ => sampleConvert_dec n) hp (by decide) (by decide) (by decide) (by decide) (by decide +kernel)
  have := C71_default_refuses serviceEnv _ _ _ hp (by decide) (by decide) hr
  cases this

-- The hypotheses of C71_no_lookup are met by an address which is accepted.
example : (match (parse serviceEnv "10.0.0.1".toList (ParserOp.runAll [(serviceEnv, .setAllow 5 false)] portlessParser)).2 with
    | .ok [r] => r.lo.getPort == 0
    | _ => false) = true := by decide +kernel

end Verif
