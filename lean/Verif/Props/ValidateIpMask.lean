import Verif.Props.ValidateIp
import Verif.Props.StringToAddrMask

/-!
# C73: the canonical form of `validate-ip`
-/

namespace Verif

open Spec Tools Parser

/-! ### The canonical form -/

theorem text_congr {a b : Addr} (db : NetDb) (h1 : a.getIpv6.addr = b.getIpv6.addr) (h2 : a.getPort = b.getPort)
    (h3 : a.getMask = b.getMask) {s : Str} (hs : b.toIpv4or6String db STRING_IP_ALL = .ok s) :
    a.toIpv4or6String db STRING_IP_ALL = .ok s := by
  have hb : a.bytes = b.bytes := h1
  have hm : a.mask = b.mask := h3
  have i4 : a.isIpv4 = b.isIpv4 := by rw [Addr.isIpv4, Addr.isIpv4, hb]
  have id : a.isDefault = b.isDefault := by rw [Addr.isDefault, Addr.isDefault, hb]
  have is : a.getMaskSize = b.getMaskSize := by rw [Addr.getMaskSize, Addr.getMaskSize, hm]
  have ic : a.isMaskIpv4Compatible = b.isMaskIpv4Compatible := by rw [Addr.isMaskIpv4Compatible, Addr.isMaskIpv4Compatible, hm]
  have hpr : Printable b := by
    rcases canonical_text db b with ⟨h, _⟩ | ⟨_, h⟩
    · exact h
    · rw [h] at hs; cases hs
  have hc : b.isIpv4 = true → b.isMaskIpv4Compatible = true := fun h => (maskCompatible_iff b).2 (hpr ((isIpv4_iff b).1 h))
  rw [toIpv4or6String_all db b hc] at hs
  rw [toIpv4or6String_all db a (by rw [i4, ic]; exact hc), addressText, maskText, i4, id, is, hb, hm, h2]
  exact hs

theorem plain_bits {r : Range} (h : Parser.Plain r) (hp : Printable r.lo) :
    ∃ k, k ≤ 128 ∧ ip r.lo.getMask = prefixMask k ∧ (isV4 (ip r.lo.getIpv6.addr) → 96 ≤ k) := by
  obtain ⟨_, _, k, hk, hm⟩ := h
  refine ⟨k, hk, hm, fun hv => ?_⟩
  have := hp hv
  rw [Addr.getMask, hm, prefixMask] at this
  by_cases h96 : 96 ≤ k
  · exact h96
  · have h1 : 2 ^ 33 ≤ 2 ^ (128 - k) := Nat.pow_le_pow_right (by omega) (by omega)
    omega

/-- A line of the tool, given to the tool with the same options. -/
theorem line_again {env : ParseEnv} {o : ValidateOptions} {p : Parser} (henv : NumericService env) (db : NetDb)
    (hp : IsToolParser env o p) (hu : UsableOptions env o) (hmask : o.mask = true)
    (hproto : env.getprotobyname (cstr o.protocol) = some 6 ∨ env.getprotobyname (cstr o.protocol) = some 17)
    {r : Range} (hr : Parser.Plain r) (hpr : Printable r.lo) :
    ∃ s r', r.lo.toIpv4or6String db STRING_IP_ALL = .ok s ∧ '\n' ∉ s ∧ parse env s p = (p, .ok [r'])
      ∧ r'.lo.toIpv4or6String db STRING_IP_ALL = .ok s := by
  obtain ⟨k, hk, hm, hv⟩ := plain_bits hr hpr
  obtain ⟨s, l, h1, h2, h3, h4⟩ := parse_printed_mask (p := p) henv db (mode := STRING_IP_ALL)
    ⟨by decide, by decide, by decide, by decide⟩ (by decide) ⟨by decide, .inl (by decide)⟩ (.inl (by show _ ≠ _; decide)) (by
      rw [hp.port]; exact hu.port) hm hk hv
    (by rw [hp.flags]; exact hmask) (hp.flags _) (hp.flags _) ⟨hp.flags _, hp.flags _⟩ (by rw [Unsorted, hp.sort]; rfl)
  have hone : ∃ n, protocolsOf p.config.protocol = [n] := by
    have := hp.protocol
    rcases hproto with h | h
    · rw [h] at this
      rw [← Option.some.inj this]
      exact ⟨_, rfl⟩
    · rw [h] at this
      rw [← Option.some.inj this]
      exact ⟨_, rfl⟩
  obtain ⟨n, hn⟩ := hone
  rw [hn] at h4
  cases h4 with
  | cons hx h4 =>
    cases h4
    exact ⟨s, _, h1, h2, h3, text_congr db hx.address (hx.port.trans (if_pos (show PrintsPort STRING_IP_ALL by show _ ≠ _; decide))) (ip_inj hx.mask) h1⟩

theorem fields_line (s t : Str) (hs : '\n' ∉ s) : fields (· == '\n') (s ++ '\n' :: t) = s :: fields (· == '\n') t := by
  induction s with
  | nil => rfl
  | cons x s ih =>
    have hx : (x == '\n') = false := by
      rw [beq_eq_false_iff_ne]
      exact fun h => hs (h ▸ List.mem_cons_self)
    rw [List.cons_append, fields, hx, if_neg Bool.false_ne_true, ih fun h => hs (List.mem_cons_of_mem _ h)]
    rfl

theorem fields_ne_nil (sep : Char → Bool) (s : Str) : fields sep s ≠ [] := by
  cases s with
  | nil => exact fun h => nomatch h
  | cons x s =>
    rw [fields]
    split <;> exact fun h => nomatch h

theorem lines_written (l : List Str) (h : ∀ s ∈ l, '\n' ∉ s) : outputLines (l.flatMap fun s => s ++ ['\n']) = l := by
  induction l with
  | nil => rfl
  | cons s l ih =>
    rw [outputLines] at ih ⊢
    rw [List.flatMap_cons, List.append_assoc, List.singleton_append, fields_line _ _ (h s List.mem_cons_self),
      List.dropLast_cons_of_ne_nil (fields_ne_nil _ _), ih fun x hx => h x (List.mem_cons_of_mem _ hx)]

theorem isToolParser_addresses {env : ParseEnv} {o : ValidateOptions} {p : Parser} (h : IsToolParser env o p) (l : List Str) :
    IsToolParser env { o with addresses := l } p := ⟨h.flags, h.sort, h.addresses, h.mask4, h.mask6, h.protocol, h.port, h.noError, h.noErrors⟩

/-- C73: the tool, given the lines it wrote, writes them again. -/
def C73_claim : Prop :=
  ∀ (env : ParseEnv) (db : NetDb) (o : ValidateOptions) (w : Output), SafeAnswers env → DottedIsNoNumber env → NumericService env →
    o.canonicalize = true → validateMain env db o = (w, .ok 0) →
    validateMain env db { o with addresses := outputLines w.out } = (w, .ok 0)

/-- C73, with `--mask` and one of the protocols TCP and UDP. -/
theorem C73_canonical_again_partial (env : ParseEnv) (db : NetDb) (o : ValidateOptions) (w : Output) (hs : SafeAnswers env)
    (hd : DottedIsNoNumber env) (henv : NumericService env) (hcan : o.canonicalize = true) (hmask : o.mask = true)
    (hproto : env.getprotobyname (cstr o.protocol) = some 6 ∨ env.getprotobyname (cstr o.protocol) = some 17)
    (h : validateMain env db o = (w, .ok 0)) :
    validateMain env db { o with addresses := outputLines w.out } = (w, .ok 0) := by
  by_cases hnil : o.addresses = []
  · have : validateMain env db o = (Output.empty, .ok 0) := by rw [validateMain, hnil]; rfl
    rw [this] at h
    cases h
    rfl
  obtain ⟨n, hn1, _, hn2⟩ := C72_exit_status_partial env db o hs hd
  rw [h] at hn1
  cases hn1
  rcases hn2.1 rfl with hn2 | ⟨hu, hacc⟩
  · exact absurd hn2 hnil
  rcases configure_run env hd o with ⟨_, p, hc, hp⟩ | ⟨hx, _⟩
  swap
  · exact absurd hu hx
  have hacc := hacc p hp
  obtain ⟨ho, he⟩ := C72_output env db o p hs hd hu hp fun a ha _ _ l hl r hr => (hacc a ha).2 hcan l hl r hr
  rw [h] at ho he
  dsimp only at ho he
  -- the lines
  have hL : ∀ a ∈ o.addresses, ∃ l : List Str, linesOf env db o p a = (l.flatMap fun s => s ++ ['\n'])
      ∧ ∀ s ∈ l, '\n' ∉ s ∧ ∃ r, parse env s p = (p, .ok [r]) ∧ r.lo.toIpv4or6String db STRING_IP_ALL = .ok s := by
    intro a ha
    obtain ⟨q, l, h1, h2, _, _⟩ := tool_parse hp hs a
    have hac := hacc a ha
    rw [Accepted, h1] at hac
    have hpr := hac.2 hcan l rfl
    rw [linesOf, h1]
    dsimp only
    rw [if_pos ⟨hac.1, hcan⟩]
    clear h1 hac
    induction l with
    | nil => exact ⟨[], rfl, fun _ h => nomatch h⟩
    | cons r l ih =>
      obtain ⟨m, g1, g2⟩ := ih (fun x hx => h2 x (List.mem_cons_of_mem _ hx)) fun x hx => hpr x (List.mem_cons_of_mem _ hx)
      obtain ⟨s, r', g3, g4, g5, g6⟩ := line_again henv db hp hu hmask hproto (h2 r List.mem_cons_self) (hpr r List.mem_cons_self)
      refine ⟨s :: m, ?_, ?_⟩
      · rw [List.flatMap_cons, List.flatMap_cons, g1, lineOf, g3]
        rfl
      · intro x hx
        rcases List.mem_cons.1 hx with rfl | hx
        · exact ⟨g4, r', g5, g6⟩
        · exact g2 x hx
  have hall : ∃ l : List Str, o.addresses.flatMap (linesOf env db o p) = (l.flatMap fun s => s ++ ['\n'])
      ∧ ∀ s ∈ l, '\n' ∉ s ∧ ∃ r, parse env s p = (p, .ok [r]) ∧ r.lo.toIpv4or6String db STRING_IP_ALL = .ok s := by
    generalize o.addresses = as at hL
    induction as with
    | nil => exact ⟨[], rfl, fun _ h => nomatch h⟩
    | cons a as ih =>
      obtain ⟨m, g1, g2⟩ := ih fun x hx => hL x (List.mem_cons_of_mem _ hx)
      obtain ⟨m', g3, g4⟩ := hL a List.mem_cons_self
      refine ⟨m' ++ m, by rw [List.flatMap_cons, g1, g3, List.flatMap_append], fun s hs => ?_⟩
      rcases List.mem_append.1 hs with hs | hs
      · exact g4 s hs
      · exact g2 s hs
  obtain ⟨l, g1, g2⟩ := hall
  have hlines : outputLines w.out = l := by
    rw [ho, g1]
    exact lines_written l fun s hs => (g2 s hs).1
  have herr : w.err = [] := by
    rw [he]
    refine List.flatMap_eq_nil_iff.2 fun a ha => ?_
    rw [reportOf]
    exact if_pos (.inl (hacc a ha).1)
  rw [hlines]
  -- the second run
  have hp' := isToolParser_addresses hp l
  have hu' : UsableOptions env { o with addresses := l } := ⟨hu.addresses, hu.port, hu.protocol⟩
  have herrs : p.getErrorCount = 0 := hp.noErrors
  have hacc' : ∀ s ∈ l, Accepted env { o with addresses := l } p s := by
    intro s hs
    obtain ⟨_, r, g3, g4⟩ := g2 s hs
    rw [Accepted, g3]
    refine ⟨herrs, fun _ l' hl' r' hr' => ?_⟩
    cases hl'
    rw [List.mem_singleton.1 hr']
    rcases canonical_text db r.lo with ⟨h, _⟩ | ⟨_, h⟩
    · exact h
    · rw [h] at g4; cases g4
  obtain ⟨n', hn1', _, hn2'⟩ := C72_exit_status_partial env db { o with addresses := l } hs hd
  have hn0 : n' = 0 := hn2'.2 (.inr ⟨hu', fun q hq => by rw [toolParser_unique hq hp']; exact hacc'⟩)
  rw [hn0] at hn1'
  obtain ⟨ho', he'⟩ := C72_output env db { o with addresses := l } p hs hd hu' hp'
    fun a ha _ _ l hl r hr => (hacc' a ha).2 hcan l hl r hr
  have ho'' : (validateMain env db { o with addresses := l }).1.out = w.out := by
    rw [ho', ho, g1]
    show l.flatMap _ = _
    rw [List.flatMap_def, List.flatMap_def]
    congr 1
    refine List.map_congr_left fun s hs => ?_
    obtain ⟨_, r, g3, g4⟩ := g2 s hs
    rw [linesOf, g3]
    dsimp only
    rw [if_pos ⟨herrs, hcan⟩, List.flatMap_cons, List.flatMap_nil, List.append_nil, lineOf, g4]
    rfl
  have he'' : (validateMain env db { o with addresses := l }).1.err = w.err := by
    rw [he', herr]
    refine List.flatMap_eq_nil_iff.2 fun a ha => ?_
    rw [reportOf]
    exact if_pos (.inl (hacc' a ha).1)
  refine Prod.ext ?_ hn1'
  cases hw : (validateMain env db { o with addresses := l }).1 with
  | mk x y =>
    rw [hw] at ho'' he''
    cases w
    dsimp only at ho'' he'' ⊢
    rw [ho'', he'']

/-- Without `--mask` the mask, which is always written, is refused. -/
theorem C73_claim_fails : ¬ C73_claim := by
  intro h
  have h1 : validateMain serviceEnv sampleDb { addresses := ["10.0.0.1:80".toList], canonicalize := true }
      = ({ out := "10.0.0.1:80/32\n".toList, err := [] }, .ok 0) := by decide +kernel
  have h2 : (validateMain serviceEnv sampleDb { addresses := ["10.0.0.1:80/32".toList], canonicalize := true }).2 = .ok 1 := by
    decide +kernel
  have e : outputLines "10.0.0.1:80/32\n".toList = ["10.0.0.1:80/32".toList] := by
    have e : "10.0.0.1:80/32\n".toList = (["10.0.0.1:80/32".toList].flatMap fun s => s ++ ['\n']) := by decide +kernel
    rw [e]
    exact lines_written _ (by decide +kernel)
  have h := h serviceEnv sampleDb { addresses := ["10.0.0.1:80".toList], canonicalize := true } _ (glibc_safe serviceEnv_glibc)
    serviceEnv_dotted serviceEnv_numeric rfl h1
  dsimp only at h
  rw [e] at h
  rw [h] at h2
  cases h2

/-- With a protocol other than TCP and UDP, each address is written three times. -/
theorem C73_other_protocols :
    validateMain serviceEnv sampleDb { addresses := ["10.0.0.1:80/8".toList], canonicalize := true, mask := true, protocol := "icmp".toList }
      = ({ out := "10.0.0.1:80/8\n10.0.0.1:80/8\n10.0.0.1:80/8\n".toList, err := [] }, .ok 0) := by decide +kernel

/-- Two arguments, of which one is a list. -/
example : validateMain serviceEnv sampleDb { maskOptions true ["10.1.2.3/8,[::1]:80/64".toList, "1.2.3.4:5/32".toList] with list := true }
    = ({ out := "10.1.2.3:60000/8\n[::1]:80/64\n1.2.3.4:5/32\n".toList, err := [] }, .ok 0) := by decide +kernel

end Verif
