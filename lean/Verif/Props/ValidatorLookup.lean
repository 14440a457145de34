import Verif.Props.ValidatorRange
import Verif.Props.ParserProtocol

/-!
# C133: the values which an address validator with lookups accepts

Lookups are allowed unless an option forbids them, so that this is about the validators which most option files ask for.
-/

namespace Verif

open Spec

namespace Spec

/-- The options ask for addresses which may be names of hosts: no masks, ranges or comments, and no defaults. -/
structure HostNames (split : Str → List Str) (data : List Str) : Prop where
  lookup : allowedByOptions split data .addressLookup
  mask : ¬ allowedByOptions split data .mask
  range : ¬ allowedByOptions split data .addressRange
  hash : ¬ allowedByOptions split data .commentHash
  semicolon : ¬ allowedByOptions split data .commentSemicolon
  noDefault : ∀ o ∈ data, optionName o ≠ "default".toList ∧ optionName o ≠ "defaults".toList

/-- A value names the host `u`, with the port `q` (empty when there is none); `ports`: they are allowed, `required`: the address may not
be left out. -/
inductive Names (ports required : Prop) : (t u q : Str) → Prop
  | name {u : Str} (hne : u ≠ []) (h : ':' ∉ u) (hb : u.head? ≠ some '[') : Names ports required u u []
  | port {u q : Str} (hne : u ≠ []) (h : ':' ∉ u) (hb : u.head? ≠ some '[') (hq : ':' ∉ q)
      (hp : ports ∨ '.' ∉ u ∨ ']' ∈ u ∨ ']' ∈ q) : Names ports required (u ++ ':' :: q) u q
  | six {u : Str} (h : 2 ≤ u.count ':') (hb : u.head? ≠ some '[') : Names ports required u u []
  | bracket {u : Str} (hne : u ≠ []) (h : ']' ∉ u) : Names ports required ('[' :: u ++ [']']) u []
  | bracketPort {u q : Str} (hne : u ≠ []) (h : ']' ∉ u) (hp : ports) : Names ports required ('[' :: u ++ ']' :: ':' :: q) u q
  | nothing {t q : Str} (hr : ¬ required) (h : Entry ports t [] q) (hb : t.head? ≠ some '[') : Names ports required t "0.0.0.0".toList q
  | brackets {t q : Str} (hr : ¬ required) (h : Entry ports t [] q) (hb : t.head? = some '[') : Names ports required t "::".toList q

/-- The answer of the system about a host and a port, which is zero if there is none. -/
def hostAnswer (env : ParseEnv) (u q : Str) : GaiAnswer := env.getaddrinfo (cstr u) (if q = [] then "0".toList else cstr q) false 0

/-- The item names a host, with a port where it is required, about which the system has an answer of nothing but IP addresses. -/
def ValidName (env : ParseEnv) (split : Str → List Str) (data : List Str) (e : Str) : Prop :=
  ∃ t u q l, Trims e t ∧ Names (PortsByOptions split data) (allowedByOptions split data .requiredAddress) t u q
    ∧ (allowedByOptions split data .requiredPort → q ≠ []) ∧ hostAnswer env u q = .list l ∧ ∀ x ∈ l, usable x = true

end Spec

section
variable {env : Validator.Env} {data : List Str} {v : Parser} {n : Nat} (h : Validator.create env data = .ok (v, n))
  (hnd : ∀ o ∈ data, optionName o ≠ "default".toList ∧ optionName o ≠ "defaults".toList)
include h hnd

theorem named_asks {t u q : Str} :
    Asks v t u q ↔ Names (PortsByOptions env.split data) (allowedByOptions env.split data .requiredAddress) t u q := by
  obtain ⟨hd4, hd6, _, _, _⟩ := created_flags h hnd
  have hr := C69_allowed_iff env data v n h .requiredAddress
  have hr' : v.config.flags .requiredAddress = false ↔ ¬ allowedByOptions env.split data .requiredAddress := by
    rw [← hr]; simp
  have hdt : defaultText v.config t = if t.head? = some '[' then "::".toList else "0.0.0.0".toList := by
    unfold defaultText
    rw [if_pos hd6, if_neg (not_not_intro hd4), if_neg (not_not_intro hd6)]
  rw [← created_ports h]
  constructor
  · intro ha
    generalize hu : u = u' at ha
    cases ha with
    | name h1 h2 h3 => exact .name h1 h2 h3
    | port h1 h2 h3 h4 h5 => exact .port h1 h2 h3 h4 h5
    | six h1 h2 => exact .six h1 h2
    | bracket h1 h2 => exact .bracket h1 h2
    | bracketPort h1 h2 h3 => exact .bracketPort h1 h2 h3
    | default h1 h2 =>
      rcases h2 with h2 | ⟨_, _, _, _, h2⟩
      · rw [hdt]
        by_cases hb : t.head? = some '['
        · rw [if_pos hb]; exact .brackets (hr'.1 h1) h2 hb
        · rw [if_neg hb]; exact .nothing (hr'.1 h1) h2 hb
      · exact absurd hd6 h2
    | defaultPort _ _ _ h2 => exact absurd hd6 h2
  · intro ha
    cases ha with
    | name h1 h2 h3 => exact .name h1 h2 h3
    | port h1 h2 h3 h4 h5 => exact .port h1 h2 h3 h4 h5
    | six h1 h2 => exact .six h1 h2
    | bracket h1 h2 => exact .bracket h1 h2
    | bracketPort h1 h2 h3 => exact .bracketPort h1 h2 h3
    | nothing h1 h2 hb =>
      rw [if_neg hb] at hdt
      rw [← hdt]
      exact .default (hr'.2 h1) (.inl h2)
    | brackets h1 h2 hb =>
      rw [if_pos hb] at hdt
      rw [← hdt]
      exact .default (hr'.2 h1) (.inl h2)

theorem named_answer (penv : ParseEnv) (u q : Str) : answerTo penv v u q = hostAnswer penv u q := by
  obtain ⟨_, _, _, _, hd⟩ := created_flags h hnd
  unfold answerTo hostAnswer serviceAsked
  rw [hd, (created_rest h).2.1, if_neg (show ¬ ((-1 : Int) = IPPROTO_TCP ∨ (-1 : Int) = IPPROTO_UDP) by decide), if_pos rfl]
  by_cases hq : q = [] <;> simp [hq]

end

/-- Valid is read without an error, by the count. -/
theorem valid_count {env : Validator.Env} {data : List Str} {v : Parser} {n : Nat} (h : Validator.create env data = .ok (v, n))
    (calls : List (ParseEnv × Str)) (penv : ParseEnv) (value : Str) :
    (∃ m, (Validator.validate penv value (Validator.validateAll calls v)).2 = .ok (true, m))
      ↔ (∃ l, (Parser.parse penv value v).2 = .ok l) ∧ (Parser.parse penv value v).1.getErrorCount = 0 := by
  rw [C55_valid_iff env data v n h]
  obtain ⟨errs, r, hlog⟩ := Parser.logging_parse penv v.config value
  rw [hlog v rfl]
  have h1 : (Parser.emitAll errs v).hasErrors = false ↔ (Parser.emitAll errs v).getErrorCount = 0 := by
    rw [(emitted (p := v) (errs := errs)).2.1, Parser.getErrorCount, (created_rest h).2.2.2, Parser.hasErrors, Parser.emitAll,
      (created_rest h).2.2.1]
    cases errs with
    | nil => simp
    | cons x l => simp; omega
  rw [h1]

theorem bad_usable (l : List AddrInfo) : badAnswers l = 0 ↔ ∀ x ∈ l, usable x = true := by
  unfold badAnswers
  constructor
  · intro h x hx
    have h1 : (l.filter wrongSize) = [] := List.eq_nil_of_length_eq_zero (by omega)
    have h2 : l.any noAddressFamily = false := by
      cases hb : l.any noAddressFamily with
      | false => rfl
      | true => rw [hb] at h; simp at h
    have h3 : wrongSize x ≠ true := fun h' => by
      have : x ∈ l.filter wrongSize := List.mem_filter.2 ⟨hx, h'⟩
      rw [h1] at this
      cases this
    have h4 := List.any_eq_false.1 h2 x hx
    cases x with
    | inet len pr sa => simpa [usable, wrongSize] using h3
    | inet6 len pr sa => simpa [usable, wrongSize] using h3
    | other f => exact absurd rfl h4
  · intro h
    have h1 : l.filter wrongSize = [] := List.filter_eq_nil_iff.2 fun x hx => by
      have := h x hx
      cases x with
      | inet len pr sa => simpa [usable, wrongSize] using this
      | inet6 len pr sa => simpa [usable, wrongSize] using this
      | other f => simp [wrongSize]
    have h2 : l.any noAddressFamily = false := List.any_eq_false.2 fun x hx => by
      have := h x hx
      cases x with
      | inet len pr sa => simp [noAddressFamily]
      | inet6 len pr sa => simp [noAddressFamily]
      | other f => simp [usable] at this
    rw [h1, h2]
    rfl

/-- One item. -/
theorem created_name {env : Validator.Env} {data : List Str} {v : Parser} {n : Nat} (h : Validator.create env data = .ok (v, n))
    (ho : HostNames env.split data) (calls : List (ParseEnv × Str)) (penv : ParseEnv) (hs : SafeAnswers penv) {value inp : Str}
    (h1 : OneEntry v inp) (hparse : Parser.parse penv value v = Parser.parse penv inp v) (htrim : ∀ t, Trims value t ↔ Trims inp t) :
    (∃ m, (Validator.validate penv value (Validator.validateAll calls v)).2 = .ok (true, m)) ↔ ValidName penv env.split data value := by
  have hlk : LooksUp v inp := ⟨(C69_allowed_iff env data v n h _).2 ho.lookup, created_off h ho.mask, .inl (created_off h ho.range),
    h1, created_unsorted h⟩
  have h0 : v.getErrorCount = 0 := (created_rest h).2.2.2
  have hport : ∀ q : Str, (allowedByOptions env.split data .requiredPort → q ≠ []) ↔ (v.config.flags .requiredPort = false ∨ q ≠ []) := by
    intro q
    rw [← C69_allowed_iff env data v n h .requiredPort]
    cases v.config.flags .requiredPort <;> simp
  have hsafe : ∀ {u q l}, hostAnswer penv u q = .list l → ∀ x ∈ l, SafeAnswer x := fun hl => hs _ _ _ _ (.inl rfl) hl
  obtain ⟨t, ht⟩ : ∃ t, Trims value t := ⟨_, trims_trim value⟩
  have hone : ∀ t', Trims value t' → t' = t := fun t' ht' => (trims_eq ht').symm.trans (trims_eq ht)
  rw [valid_count h, hparse]
  by_cases hno : ∃ u q, Asks v t u q ∧ (v.config.flags .requiredPort = false ∨ q ≠ [])
  · obtain ⟨u, q, ha, hq⟩ := hno
    have found : ∀ {u q l}, Asks v t u q → (v.config.flags .requiredPort = false ∨ q ≠ []) → hostAnswer penv u q = .list l →
        (∃ l, (Parser.parse penv inp v).2 = .ok l) ∧ ((Parser.parse penv inp v).1.getErrorCount = 0 ↔ ∀ x ∈ l, usable x = true) := by
      intro u q l ha hq hl
      obtain ⟨p', rs, h1, _, _, h2, _⟩ := C92_found penv v inp t u q l hlk ((htrim t).1 ht) ha hq ((named_answer h ho.noDefault penv u q).trans hl)
        (hsafe hl)
      rw [h1]
      refine ⟨⟨rs, rfl⟩, ?_⟩
      rw [h2, h0, ← bad_usable]
      omega
    constructor
    · rintro ⟨_, hc⟩
      cases hl : hostAnswer penv u q with
      | list l => exact ⟨t, u, q, l, ht, (named_asks h ho.noDefault).1 ha, (hport q).2 hq, hl, (found ha hq hl).2.1 hc⟩
      | error r e =>
        obtain ⟨p', h1, _, h2, _⟩ := C92_unknown penv v inp t u q r e hlk ((htrim t).1 ht) ha hq ((named_answer h ho.noDefault penv u q).trans hl)
        rw [h1, h2, h0] at hc
        cases hc
    · rintro ⟨t', u', q', l, ht', ha', hq', hl, hx⟩
      obtain rfl := hone t' ht'
      have := found ((named_asks h ho.noDefault).2 ha') ((hport q').1 hq') hl
      exact ⟨this.1, this.2.2 hx⟩
  · constructor
    · rintro ⟨_, hc⟩
      obtain ⟨p', h1, _, h2, _⟩ := C92_refused penv v inp t hlk ((htrim t).1 ht) hno
      rw [h1, h2, h0] at hc
      cases hc
    · rintro ⟨t', u, q, l, ht', ha, hq, _⟩
      obtain rfl := hone t' ht'
      exact absurd ⟨u, q, (named_asks h ho.noDefault).2 ha, (hport q).1 hq⟩ hno

/-- C133: a validator of one address accepts the names which the system knows; whatever was validated before. -/
theorem C133_valid_iff (env : Validator.Env) (data : List Str) (v : Parser) (n : Nat) (h : Validator.create env data = .ok (v, n))
    (ho : HostNames env.split data) (hs : ∀ c, ¬ SeparatesByOptions env.split data c) (calls : List (ParseEnv × Str)) (penv : ParseEnv)
    (ha : SafeAnswers penv) (value : Str) :
    (∃ m, (Validator.validate penv value (Validator.validateAll calls v)).2 = .ok (true, m)) ↔ ValidName penv env.split data value := by
  have hs' (c : Char) : separates v c = false := by
    have := hs c
    rw [← created_separates_iff h c, Bool.not_eq_true] at this
    exact this
  have hc : NoComments v := ⟨created_off h ho.hash, created_off h ho.semicolon⟩
  obtain ⟨inp, hi, hparse, htrim⟩ := blank_value hs' hc value
  refine created_name h ho calls penv ha ⟨hi, fun x _ => hs' x, hc⟩ (hparse penv) fun t => ⟨htrim t, fun ht => ?_⟩
  have ht' := trims_trim value
  rw [← trims_eq ht, trims_eq (htrim _ ht')]
  exact ht'

/-- C133: a validator of lists accepts the values of which every item is such a name. -/
theorem C133_list_iff (env : Validator.Env) (data : List Str) (v : Parser) (n : Nat) (h : Validator.create env data = .ok (v, n))
    (ho : HostNames env.split data) (hs : ∃ c, SeparatesByOptions env.split data c) (calls : List (ParseEnv × Str)) (penv : ParseEnv)
    (ha : SafeAnswers penv) (value : Str) :
    (∃ m, (Validator.validate penv value (Validator.validateAll calls v)).2 = .ok (true, m))
      ↔ ∀ e, ItemOf env.split data value e → ValidName penv env.split data e := by
  rw [C91_validator env data v n h (hs.elim fun c hc => hc.imp And.left fun hc => hc.imp And.left And.left) ⟨ho.hash, ho.semicolon⟩]
  refine forall_congr' fun e => ?_
  rw [created_items h]
  refine forall_congr' fun he => ?_
  refine created_name h ho calls penv ha ⟨he.1, fun c hc => ?_, created_off h ho.hash, created_off h ho.semicolon⟩ rfl fun _ => Iff.rfl
  have := he.2.1 c hc
  rw [← created_separates_iff h c, Bool.not_eq_true] at this
  exact this

/-- C133: without any option names are looked up, one of them, with or without a port. -/
theorem C133_no_options (split : Str → List Str) : HostNames split [] ∧ (∀ c, ¬ SeparatesByOptions split [] c) ∧ PortsByOptions split []
    ∧ ¬ allowedByOptions split [] .requiredAddress ∧ ¬ allowedByOptions split [] .requiredPort := by
  have h : ∀ f, allowedByOptions split [] f → allowedAtFirst f := by
    intro f hf
    cases f <;> first | exact hf.elim | exact hf
  have hn : ∀ {f}, ¬ allowedAtFirst f → ¬ allowedByOptions split [] f := fun h1 h2 => h1 (h _ h2)
  refine ⟨⟨.inr (.inl rfl), ?_, ?_, ?_, ?_, by simp⟩, ?_, .inl (.inr (.inr rfl)), ?_, ?_⟩
  iterate 4 exact hn (by unfold allowedAtFirst; decide)
  · rintro c (⟨h1, _⟩ | ⟨h1, _⟩ | ⟨h1, _⟩) <;> exact hn (by unfold allowedAtFirst; decide) h1
  all_goals exact hn (by unfold allowedAtFirst; decide)

/-- C133: addresses written as numbers are valid, with or without a port, also where names are looked up. -/
theorem C133_numeric (penv : ParseEnv) (henv : NumericService penv) (split : Str → List Str) (data : List Str) (e t u q : Str) (n : Nat)
    (ht : Trims e t) (hn : Names (PortsByOptions split data) (allowedByOptions split data .requiredAddress) t u q) (hu : AddressOf u n)
    (hq : (q = [] ∧ ¬ allowedByOptions split data .requiredPort) ∨ ∃ k, k ≤ 65535 ∧ q = dec k) : ValidName penv split data e := by
  obtain ⟨b, _, hr⟩ := Parser.address_readable hu
  have hp : allowedByOptions split data .requiredPort → q ≠ [] := by
    rcases hq with ⟨_, h⟩ | ⟨k, _, rfl⟩
    · exact fun h' => absurd h' h
    · exact fun _ => dec_ne_nil k
  obtain ⟨k, hk, hs⟩ : ∃ k, k ≤ 65535 ∧ (if q = [] then "0".toList else cstr q) = dec k := by
    rcases hq with ⟨rfl, _⟩ | ⟨k, hk, rfl⟩
    · exact ⟨0, by decide, by decide⟩
    · exact ⟨k, hk, by rw [if_neg (dec_ne_nil k), cstr_dec]⟩
  have key : ∀ x, CompleteAnswer x → ∀ y ∈ spread 0 [x], usable y = true := by
    intro x hx y hy
    rw [spread, if_pos rfl, List.mem_flatMap] at hy
    obtain ⟨z, hz, hy⟩ := hy
    rw [List.mem_singleton.1 hz] at hy
    simp only [List.mem_cons, List.not_mem_nil, or_false] at hy
    rcases hy with rfl | rfl | rfl <;> exact usable_retag hx _
  rcases hr.writes with ⟨b4, h4, _⟩ | ⟨h4, h6⟩
  · have hl := (henv _ _ 0 hk).1 b4 h4
    rw [← hs] at hl
    exact ⟨t, u, q, _, ht, hn, hp, hl, key _ ⟨rfl, rfl⟩⟩
  · have hl := (henv _ _ 0 hk).2 b h4 h6
    rw [← hs] at hl
    exact ⟨t, u, q, _, ht, hn, hp, hl, key _ ⟨rfl, rfl⟩⟩

-- C133_valid_iff: without options a name is valid when the system knows it.
example : (∃ m, (Validator.validate hostsEnv "gate:80".toList (sampleValidator [])).2 = .ok (true, m))
    ∧ ¬ ∃ m, (Validator.validate hostsEnv "fence".toList (sampleValidator [])).2 = .ok (true, m) := by
  have hs := sampleValidator_created (data := []) (n := 0) (by decide +kernel)
  obtain ⟨h1, h2, h3, h4, h5⟩ := C133_no_options validatorEnv.split
  refine ⟨(C133_valid_iff validatorEnv [] _ _ hs h1 h2 [] hostsEnv (glibc_safe hostsEnv_glibc) _).2
    ⟨_, _, _, _, trims_self (by decide) (by decide),
      .port (u := "gate".toList) (q := "80".toList) (by decide) (by decide) (by decide) (by decide) (.inl h3),
      fun h => absurd h h5, rfl, by decide⟩, ?_⟩
  rw [show sampleValidator [] = Validator.validateAll [] (sampleValidator []) from rfl,
    C133_valid_iff validatorEnv [] _ _ hs h1 h2 [] hostsEnv (glibc_safe hostsEnv_glibc)]
  rintro ⟨t, u, q, l, ht, hn, _, hl, _⟩
  obtain rfl : t = "fence".toList := (trims_eq ht).symm.trans (by decide)
  have : u = "fence".toList ∨ u = "0.0.0.0".toList ∨ u = "::".toList := by
    generalize he : "fence".toList = t at hn
    cases hn with
    | name _ _ _ => exact .inl rfl
    | port _ _ _ _ _ => exact absurd (congrArg (List.elem ':') he) (by simp)
    | six h _ => subst he; exact absurd h (by decide)
    | bracket _ _ => exact absurd (congrArg List.head? he) (by simp)
    | bracketPort _ _ _ => exact absurd (congrArg List.head? he) (by simp)
    | nothing _ _ _ => exact .inr (.inl rfl)
    | brackets _ _ _ => exact .inr (.inr rfl)
  rcases this with rfl | rfl | rfl <;> cases hl

-- C133_numeric: an address of IPv6 and a port.
example : ValidName serviceEnv (fun _ => []) [] "[::]:80".toList :=
  C133_numeric serviceEnv serviceEnv_numeric _ _ _ _ "::".toList "80".toList 0 (trims_self (by decide) (by decide))
    (.bracketPort (u := "::".toList) (q := "80".toList) (by decide) (by decide) (.inl (.inr (.inr rfl))))
    address_any6 (.inr ⟨80, by decide, by decide⟩)

/-- Names are looked up unless the options say otherwise, here those of a list. -/
def nameListOptions : List Str := ["address=lookup commas".toList]

-- C133_list_iff: the items of the list are "gate" and "gate:80", which are both valid.
example : ∃ m, (Validator.validate hostsEnv "gate,, gate:80".toList (sampleValidator nameListOptions)).2 = .ok (true, m) := by
  have hc : sampleCount nameListOptions = some 0 := by decide +kernel
  have hs := sampleValidator_created hc
  have on := fun f hf => sample_on hc f hf
  have off := fun f hf => sample_off hc f hf
  refine (C133_list_iff validatorEnv nameListOptions _ _ hs ⟨on _ (by decide +kernel), off _ (by decide +kernel), off _ (by decide +kernel),
      off _ (by decide +kernel), off _ (by decide +kernel), by decide⟩ ⟨',', .inl ⟨on _ (by decide +kernel), rfl⟩⟩ [] hostsEnv
    (glibc_safe hostsEnv_glibc) _).2 fun e he => ?_
  rw [← created_items hs, items,
    show separates (sampleValidator nameListOptions) = (· == ',') from funext fun c => by
      rw [separates, show (sampleValidator nameListOptions).config.flags .multiAddressesCommas = true by decide +kernel,
        show (sampleValidator nameListOptions).config.flags .multiAddressesSpaces = false by decide +kernel,
        show (sampleValidator nameListOptions).config.flags .multiAddressesNewlines = false by decide +kernel]
      simp,
    show (fields (· == ',') "gate,, gate:80".toList).filter (· ≠ []) = ["gate".toList, " gate:80".toList] by decide] at he
  have h5 := off .requiredPort (by decide +kernel)
  simp only [List.mem_cons, List.not_mem_nil, or_false] at he
  rcases he with rfl | rfl
  · exact ⟨_, _, _, _, trims_self (by decide) (by decide), .name (u := "gate".toList) (by decide) (by decide) (by decide),
      fun h => absurd h h5, rfl, by decide⟩
  · exact ⟨_, _, _, _, ⟨[' '], [], rfl, by decide, by decide, by decide, by decide⟩,
      .port (u := "gate".toList) (q := "80".toList) (by decide) (by decide) (by decide) (by decide)
        (.inr (.inl (by decide))), fun h => absurd h h5, rfl, by decide⟩

end Verif
