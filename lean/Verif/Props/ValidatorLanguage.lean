import Verif.Props.Validator
import Verif.Props.DefaultAddress
import Verif.Props.MaskText

/-!
# Property C89: the language of the address validator
-/

namespace Verif

open Spec

/-- The options ask for one address written as a number: no lookups, ranges, lists or comments, and no defaults. -/
structure OneNumber (split : Str → List Str) (data : List Str) : Prop where
  lookup : ¬ allowedByOptions split data .addressLookup
  range : ¬ allowedByOptions split data .addressRange
  commas : ¬ allowedByOptions split data .multiAddressesCommas
  spaces : ¬ allowedByOptions split data .multiAddressesSpaces
  newlines : ¬ allowedByOptions split data .multiAddressesNewlines
  hash : ¬ allowedByOptions split data .commentHash
  semicolon : ¬ allowedByOptions split data .commentSemicolon
  noDefault : ∀ o ∈ data, optionName o ≠ "default".toList ∧ optionName o ≠ "defaults".toList

/-- The options allow ports. -/
def PortsByOptions (split : Str → List Str) (data : List Str) : Prop :=
  allowedByOptions split data .port ∨ allowedByOptions split data .requiredPort

/-- The text of the port is a valid one. -/
def ValidPort (env : ParseEnv) (split : Str → List Str) (data : List Str) (q : Str) : Prop :=
  (q = [] ∧ ¬ allowedByOptions split data .requiredPort)
    ∨ (q ≠ [] ∧ PortsByOptions split data ∧ ∃ n : Nat, n ≤ 65535 ∧ env.convert q = some (n : Int))

/-- The text of the address is a valid one: it may be left out where it is not required. -/
def ValidAddress (split : Str → List Str) (data : List Str) (u : Str) : Prop :=
  (∃ n, AddressOf u n) ∨ (u = [] ∧ ¬ allowedByOptions split data .requiredAddress)

/-! ### The vocabulary above in terms of the model -/

theorem option_flags_only {env : Validator.Env} {o : Str} {p : Parser} (hp : p.config.flags .multiPortsCommas = false)
    (h : optionName o ≠ "default".toList ∧ optionName o ≠ "defaults".toList) :
    ∃ flags n, Validator.option env o p = (Validator.withFlags p flags, .ok n) := by
  have sets {m : PM Nat} {flags : Allow → Bool} {good : Prop} (hs : Validator.Sets p m flags good) :
      ∃ flags n, m p = (Validator.withFlags p flags, .ok n) := by
    obtain ⟨n, h1, _⟩ := hs
    exact ⟨_, n, h1⟩
  have same (n : Nat) : ∃ flags n', (Pure.pure n : PM Nat) p = (Validator.withFlags p flags, .ok n') := ⟨p.config.flags, n, rfl⟩
  unfold Validator.option
  by_cases h0 : o = []
  · rw [if_pos h0]
    exact same 0
  rw [if_neg h0, Validator.nameAndValues_eq]
  dsimp only
  by_cases h1 : optionName o = "address".toList
  · rw [if_pos h1]
    exact sets (Validator.sets_addressOption p hp _)
  rw [if_neg h1]
  by_cases h2 : optionName o = "comment".toList
  · rw [if_pos h2]
    exact sets (Validator.sets_commentOption p hp _)
  rw [if_neg h2, if_neg (by rw [not_or]; exact h)]
  by_cases h4 : optionName o = "mask".toList
  · rw [if_pos h4]
    exact sets (Validator.sets_maskOption p hp _)
  rw [if_neg h4]
  by_cases h5 : optionName o = "port".toList
  · rw [if_pos h5]
    exact sets (Validator.sets_portOption p hp _)
  rw [if_neg h5]
  exact same 1

theorem options_flags_only {env : Validator.Env} : ∀ {data : List Str} {p q : Parser} {n : Nat}, p.config.flags .multiPortsCommas = false →
    (∀ o ∈ data, optionName o ≠ "default".toList ∧ optionName o ≠ "defaults".toList) → Validator.options env data p = (q, .ok n) →
    ∃ flags, q = Validator.withFlags p flags
  | [], p, q, n, _, _, h => ⟨p.config.flags, (congrArg Prod.fst h).symm⟩
  | o :: l, p, q, n, hp, hd, h => by
    have hn := Validator.option_flags env o p hp
    obtain ⟨flags, k, h1⟩ := option_flags_only (env := env) hp (hd o List.mem_cons_self)
    rw [h1] at hn
    have hp' : (Validator.withFlags p flags).config.flags .multiPortsCommas = false := by
      have := congrFun hn.2 .multiPortsCommas
      rw [Validator.newFlags_ports, hp] at this
      exact this
    rw [Validator.options, PM.bind_of_ok h1, PM.bind_def] at h
    rcases h4 : Validator.options env l (Validator.withFlags p flags) with ⟨p'', b | e | w⟩
    · rw [h4] at h
      obtain rfl : p'' = q := congrArg Prod.fst h
      obtain ⟨flags', h5⟩ := options_flags_only hp' (fun o ho => hd o (List.mem_cons_of_mem _ ho)) h4
      exact ⟨flags', h5⟩
    · rw [h4] at h
      cases h
    · rw [h4] at h
      cases h

theorem created_flags {env : Validator.Env} {data : List Str} {v : Parser} {n : Nat} (h : Validator.create env data = .ok (v, n))
    (hd : ∀ o ∈ data, optionName o ≠ "default".toList ∧ optionName o ≠ "defaults".toList) :
    v.config.defaultAddress4 = [] ∧ v.config.defaultAddress6 = [] ∧ v.config.defaultMask4 = [] ∧ v.config.defaultMask6 = []
      ∧ v.config.defaultPort = -1 := by
  obtain ⟨flags, rfl⟩ := options_flags_only (by decide) hd (created h)
  exact ⟨rfl, rfl, rfl, rfl, rfl⟩

section
variable {env : Validator.Env} {data : List Str} {v : Parser} {n : Nat} (h : Validator.create env data = .ok (v, n))
include h

theorem created_off {f : Allow} (hf : ¬ allowedByOptions env.split data f) : v.config.flags f = false := by
  cases h' : v.config.flags f with
  | false => rfl
  | true => exact absurd ((C69_allowed_iff env data v n h f).1 h') hf

theorem created_ports : PortsAllowed v = PortsByOptions env.split data := by
  unfold PortsAllowed PortsByOptions
  rw [propext (C69_allowed_iff env data v n h .port), propext (C69_allowed_iff env data v n h .requiredPort)]

theorem created_unsorted : Unsorted v := by
  unfold Unsorted
  rw [(created_rest h).1]
  decide

theorem created_protocol : v.config.protocol = -1 ∨ v.config.protocol = IPPROTO_IP ∨ v.config.protocol = IPPROTO_TCP ∨ v.config.protocol = IPPROTO_UDP :=
  .inl (created_rest h).2.1

theorem created_ports_iff (hd : ∀ o ∈ data, optionName o ≠ "default".toList ∧ optionName o ≠ "defaults".toList) (penv : ParseEnv) (q : Str) :
    (∃ port, PortOf penv v.config q port) ↔ ValidPort penv env.split data q := by
  obtain ⟨_, _, _, _, hd⟩ := created_flags h hd
  have hr := C69_allowed_iff env data v n h .requiredPort
  have hp : (v.config.flags .port = true ∨ v.config.flags .requiredPort = true) = PortsByOptions env.split data := created_ports h
  unfold PortOf ValidPort
  by_cases hq : q = []
  · constructor
    · rintro ⟨port, _, h2⟩
      rw [if_neg (not_not_intro hq)] at h2
      refine .inl ⟨hq, fun h3 => ?_⟩
      rw [hr.2 h3] at h2
      cases h2.1
    · rintro (⟨_, h2⟩ | ⟨h2, _⟩)
      · refine ⟨0, by omega, ?_⟩
        rw [if_neg (not_not_intro hq), if_pos hd]
        exact ⟨created_off h h2, rfl⟩
      · exact absurd hq h2
  · constructor
    · rintro ⟨port, h1, h2⟩
      rw [if_pos hq, hp] at h2
      exact .inr ⟨hq, h2.1, port, h1, h2.2⟩
    · rintro (⟨h2, _⟩ | ⟨_, h2, port, h3, h4⟩)
      · exact absurd h2 hq
      · refine ⟨port, h3, ?_⟩
        rw [if_pos hq, hp]
        exact ⟨h2, h4⟩

variable (ho : OneNumber env.split data)
include ho

theorem created_separates (x : Char) : separates v x = false := by
  rw [separates, created_off h ho.commas, created_off h ho.spaces, created_off h ho.newlines]
  rfl

theorem created_one {inp : Str} (hi : inp ≠ []) : OneEntry v inp :=
  ⟨hi, fun x _ => created_separates h ho x, ⟨created_off h ho.hash, created_off h ho.semicolon⟩⟩

theorem created_port (penv : ParseEnv) (q : Str) : (∃ port, PortOf penv v.config q port) ↔ ValidPort penv env.split data q :=
  created_ports_iff h ho.noDefault penv q

end

/-- Valid is read without an error. -/
theorem valid_of_parse {env : Validator.Env} {data : List Str} {v : Parser} {n : Nat} (h : Validator.create env data = .ok (v, n))
    (calls : List (ParseEnv × Str)) (penv : ParseEnv) (value : Str) {l : List Range} (hp : Parser.parse penv value v = (v, .ok l)) :
    ∃ m, (Validator.validate penv value (Validator.validateAll calls v)).2 = .ok (true, m) := by
  rw [C55_valid_iff env data v n h, hp]
  refine ⟨⟨l, rfl⟩, ?_⟩
  show v.hasErrors = false
  rw [Parser.hasErrors, (created_rest h).2.2.1]
  rfl

theorem invalid_of_parse {env : Validator.Env} {data : List Str} {v : Parser} {n : Nat} (h : Validator.create env data = .ok (v, n))
    (calls : List (ParseEnv × Str)) (penv : ParseEnv) (value : Str) (he : (Parser.parse penv value v).1.hasErrors = true) :
    ¬ ∃ m, (Validator.validate penv value (Validator.validateAll calls v)).2 = .ok (true, m) := by
  rw [C55_valid_iff env data v n h]
  rintro ⟨_, h1⟩
  rw [he] at h1
  cases h1

theorem trims_blank {t : Str} (h : Trims [] t) : Trims [' '] t := by
  obtain ⟨x, y, h1, _, _, h4, h5⟩ := h
  obtain ⟨h6, rfl⟩ := List.append_eq_nil_iff.1 h1.symm
  obtain ⟨rfl, rfl⟩ := List.append_eq_nil_iff.1 h6
  exact ⟨[' '], [], rfl, by decide, by decide, h4, h5⟩

/-- The empty value is read as a blank. -/
theorem blank_value {v : Parser} (hs : ∀ x, separates v x = false) (hc : NoComments v) (value : Str) :
    ∃ inp : Str, inp ≠ [] ∧ (∀ penv, Parser.parse penv value v = Parser.parse penv inp v) ∧ ∀ t, Trims value t → Trims inp t := by
  by_cases hv : value = []
  · subst hv
    exact ⟨[' '], by decide, fun penv => C81_empty_blank penv v hs hc, fun t => trims_blank⟩
  · exact ⟨value, hv, fun _ => rfl, fun _ => id⟩

theorem address_any6 : AddressOf "::".toList 0 :=
  .inr ⟨by decide, .zip (p := []) (ps := []) (z := 8) (q := []) (qs := []) (.inl ⟨rfl, rfl⟩) (.inl ⟨rfl, rfl⟩) (by decide) (by decide)⟩

theorem address_any4 : AddressOf "0.0.0.0".toList 0xFFFF00000000 := .inl ⟨0, by decide, by decide, rfl⟩

theorem address_default {c : Config} (h4 : c.defaultAddress4 = []) (h6 : c.defaultAddress6 = []) (t : Str) : ∃ n, AddressOf (defaultText c t) n := by
  unfold defaultText
  rw [if_pos h6, if_neg (not_not_intro h4), if_neg (not_not_intro h6)]
  split
  · exact ⟨_, address_any6⟩
  · exact ⟨_, address_any4⟩

/-! ### C89 -/

/-- C89: without masks, the values which a validator of one address accepts are those which consist of an address, which may be left out
where it is not required, and of a port where ports are allowed; whatever was validated before. -/
theorem C89_valid_iff (env : Validator.Env) (data : List Str) (v : Parser) (n : Nat) (h : Validator.create env data = .ok (v, n))
    (ho : OneNumber env.split data) (hm : ¬ allowedByOptions env.split data .mask) (calls : List (ParseEnv × Str)) (penv : ParseEnv)
    (value t : Str) (ht : Trims value t) (hnul : '\x00' ∉ t) :
    (∃ m, (Validator.validate penv value (Validator.validateAll calls v)).2 = .ok (true, m))
      ↔ ∃ u q, Entry (PortsByOptions env.split data) t u q ∧ ValidAddress env.split data u ∧ ValidPort penv env.split data q := by
  obtain ⟨hd4, hd6, _, _, _⟩ := created_flags h ho.noDefault
  obtain ⟨inp, hi, hparse, htrim⟩ := blank_value (created_separates h ho) ⟨created_off h ho.hash, created_off h ho.semicolon⟩ value
  have hr : ReadsOne v inp := ⟨created_off h ho.lookup, created_off h hm, .inl (created_off h ho.range), created_protocol h, created_one h ho hi,
    created_unsorted h⟩
  rw [← created_ports h]
  constructor
  · intro hv
    refine Classical.byContradiction fun hno => invalid_of_parse h calls penv value ?_ hv
    rw [hparse]
    by_cases hl : v.config.flags .requiredAddress = true ∨ ¬ LeftOut t
    · obtain ⟨p', h1, _, _, h2, _⟩ := C79_refused penv v inp t hr (htrim t ht) hnul hl (fun ⟨u, q, k, port, h3, h4, h5⟩ =>
        hno ⟨u, q, h3, .inl ⟨k, h4⟩, (created_port h ho penv q).1 ⟨port, h5⟩⟩)
      rw [h1]
      exact h2
    · obtain ⟨h3, h4⟩ := not_or.1 hl
      have h3' : v.config.flags .requiredAddress = false := by simpa using h3
      obtain ⟨p', h1, _, _, h2, _⟩ := C81_refused penv v inp t hr (htrim t ht) (Classical.not_not.1 h4) h3' (by rw [hd4]; decide)
        (by rw [hd6]; decide) (fun ⟨q, k, port, h5, _, h6⟩ => by
          rcases h5 with h5 | ⟨_, _, _, _, h5⟩
          · exact hno ⟨[], q, h5, .inr ⟨rfl, fun h7 => h3 ((C69_allowed_iff env data v n h _).2 h7)⟩, (created_port h ho penv q).1 ⟨port, h6⟩⟩
          · exact h5 hd6)
      rw [h1]
      exact h2
  · rintro ⟨u, q, he, ha, hq⟩
    obtain ⟨port, hport⟩ := (created_port h ho penv q).2 hq
    rcases ha with ⟨k, ha⟩ | ⟨rfl, ha⟩
    · obtain ⟨r, h1, _⟩ := C79_accepted penv v inp t u q k port hr (htrim t ht) he ha hport
      rw [← hparse] at h1
      exact valid_of_parse h calls penv value h1
    · obtain ⟨k, hk⟩ := address_default hd4 hd6 t
      obtain ⟨r, h1, _⟩ := C81_default penv v inp t q k port hr (htrim t ht) (created_off h ha) (.inl he) hk hport
      rw [← hparse] at h1
      exact valid_of_parse h calls penv value h1

/-- C89: with masks, which are numbers of bits, the values accepted are those in which a mask of no more bits than the address has may
follow; here the address is required or not left out. -/
theorem C89_mask_iff (env : Validator.Env) (data : List Str) (v : Parser) (n : Nat) (h : Validator.create env data = .ok (v, n))
    (ho : OneNumber env.split data) (hm : allowedByOptions env.split data .mask) (hm' : ¬ allowedByOptions env.split data .addressMask)
    (calls : List (ParseEnv × Str)) (penv : ParseEnv) (value t e m : Str) (ht : Trims value t) (hcut : CutMask t e m) (hnul : '\x00' ∉ t)
    (hl : allowedByOptions env.split data .requiredAddress ∨ ¬ LeftOut e) :
    (∃ m, (Validator.validate penv value (Validator.validateAll calls v)).2 = .ok (true, m))
      ↔ ∃ u q k, Entry (PortsByOptions env.split data) e u q ∧ (∃ n, AddressOf u n) ∧ ValidPort penv env.split data q ∧ MaskOf e m k := by
  obtain ⟨_, _, hd4, hd6, _⟩ := created_flags h ho.noDefault
  obtain ⟨inp, hi, hparse, htrim⟩ := blank_value (created_separates h ho) ⟨created_off h ho.hash, created_off h ho.semicolon⟩ value
  have hr : ReadsMask v inp := ⟨created_off h ho.lookup, (C69_allowed_iff env data v n h _).2 hm, created_off h hm', .inl (created_off h ho.range),
    created_protocol h, created_one h ho hi, created_unsorted h, hd4, hd6⟩
  rw [← created_ports h]
  constructor
  · intro hv
    refine Classical.byContradiction fun hno => invalid_of_parse h calls penv value ?_ hv
    rw [hparse]
    obtain ⟨p', h1, _, _, h2, _⟩ := C88_refused penv v inp t e m hr (htrim t ht) hcut hnul (hl.imp_left (C69_allowed_iff env data v n h _).2)
      (fun ⟨u, q, k, port, b, h3, h4, h5, h6⟩ => hno ⟨u, q, b, h3, ⟨k, h4⟩, (created_port h ho penv q).1 ⟨port, h5⟩, h6⟩)
    rw [h1]
    exact h2
  · rintro ⟨u, q, b, he, ⟨k, ha⟩, hq, hb⟩
    obtain ⟨port, hport⟩ := (created_port h ho penv q).2 hq
    obtain ⟨r, h1, _⟩ := C88_accepted penv v inp t e m u q k port b hr (htrim t ht) hcut he ha hport hb
    rw [← hparse] at h1
    exact valid_of_parse h calls penv value h1

/-- The options of the examples. -/
def numberOptions : List Str := ["address=yes".toList, "port=required".toList]

def numberMaskOptions : List Str := ["address=required".toList, "mask=yes".toList]

theorem sample_off {data : List Str} {k : Nat} (h : sampleCount data = some k) (f : Allow) (hf : (sampleValidator data).config.flags f = false) :
    ¬ allowedByOptions validatorEnv.split data f := fun h' => by
  rw [(C69_allowed_iff validatorEnv data _ k (sampleValidator_created h) f).2 h'] at hf
  cases hf

theorem numberOptions_count : sampleCount numberOptions = some 0 := by decide +kernel

theorem numberMaskOptions_count : sampleCount numberMaskOptions = some 0 := by decide +kernel

theorem numberOptions_one : OneNumber validatorEnv.split numberOptions := by
  refine ⟨?_, ?_, ?_, ?_, ?_, ?_, ?_, by decide⟩ <;> exact sample_off numberOptions_count _ (by decide +kernel)

theorem numberMaskOptions_one : OneNumber validatorEnv.split numberMaskOptions := by
  refine ⟨?_, ?_, ?_, ?_, ?_, ?_, ?_, by decide⟩ <;> exact sample_off numberMaskOptions_count _ (by decide +kernel)

/-- " :80" is valid, also after another value. -/
example : ∃ m, (Validator.validate sampleEnv " :80".toList (Validator.validateAll [(sampleEnv, "x".toList)] (sampleValidator numberOptions))).2
    = .ok (true, m) :=
  (C89_valid_iff validatorEnv numberOptions _ 0 (sampleValidator_created numberOptions_count) numberOptions_one
    (sample_off numberOptions_count _ (by decide +kernel)) _ sampleEnv " :80".toList ":80".toList
    ⟨" ".toList, [], rfl, by decide, by decide, by decide, by decide⟩ (by decide)).2
    ⟨[], "80".toList, Entry.port4 (u := []) (q := "80".toList) (by decide) (by decide)
        (.inr ((C69_allowed_iff _ _ _ 0 (sampleValidator_created numberOptions_count) _).1 (by decide +kernel))),
      .inr ⟨rfl, sample_off numberOptions_count _ (by decide +kernel)⟩,
      .inr ⟨by decide, .inr ((C69_allowed_iff _ _ _ 0 (sampleValidator_created numberOptions_count) _).1 (by decide +kernel)), 80, by decide, by decide⟩⟩

/-- The empty value is not: there is no port in it. -/
example : ¬ ∃ m, (Validator.validate sampleEnv [] (Validator.validateAll [] (sampleValidator numberOptions))).2 = .ok (true, m) := by
  rw [C89_valid_iff validatorEnv numberOptions _ 0 (sampleValidator_created numberOptions_count) numberOptions_one
    (sample_off numberOptions_count _ (by decide +kernel)) [] sampleEnv [] [] ⟨[], [], rfl, by decide, by decide, by decide, by decide⟩ (by decide)]
  rintro ⟨u, q, he, _, hq⟩
  have hq' : q = [] := by
    generalize ht : ([] : Str) = t at he
    cases he <;> simp_all
  rcases hq with ⟨_, h⟩ | ⟨h, _⟩
  · exact h ((C69_allowed_iff _ _ _ 0 (sampleValidator_created numberOptions_count) _).1 (by decide +kernel))
  · exact h hq'

/-- "10.1.2.3/8" is valid for the other options. -/
example : ∃ m, (Validator.validate sampleEnv "10.1.2.3/8".toList (sampleValidator numberMaskOptions)).2 = .ok (true, m) :=
  (C89_mask_iff validatorEnv numberMaskOptions _ 0 (sampleValidator_created numberMaskOptions_count) numberMaskOptions_one
    ((C69_allowed_iff _ _ _ 0 (sampleValidator_created numberMaskOptions_count) _).1 (by decide +kernel))
    (sample_off numberMaskOptions_count _ (by decide +kernel)) [] sampleEnv "10.1.2.3/8".toList "10.1.2.3/8".toList "10.1.2.3".toList "8".toList
    (trims_self (by decide) (by decide)) ⟨by decide, .inr rfl⟩ (by decide) (.inr (by unfold LeftOut; decide))).2
    ⟨"10.1.2.3".toList, [], 104, Entry.bare4 (by decide), ⟨0xFFFF0A010203, .inl ⟨0x0A010203, by decide, by decide, rfl⟩⟩,
      .inl ⟨rfl, sample_off numberMaskOptions_count _ (by decide +kernel)⟩, .inr ⟨by decide, by decide, by decide, by decide⟩⟩

end Verif
