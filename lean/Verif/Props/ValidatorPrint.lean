import Verif.Props.ValidatorRange
import Verif.Props.RangeDefault

/-!
# Property C119: which of the texts printed by the library the address validator accepts
-/

namespace Verif

open Spec

section
variable {env : Validator.Env} {data : List Str} {v : Parser} {n : Nat} (h : Validator.create env data = .ok (v, n))
include h

theorem created_readsAll (ho : Numbers env.split data) (hr : allowedByOptions env.split data .addressRange)
    (hm : allowedByOptions env.split data .mask) (hp : allowedByOptions env.split data .port) {penv : ParseEnv}
    (hn : ∀ n, n ≤ 65535 → penv.convert (dec n) = some (n : Int)) : ReadsAll penv v :=
  ⟨created_off h ho.lookup, created_on h hr, created_on h hm, created_on h hp, created_protocol h,
    ⟨created_off h ho.hash, created_off h ho.semicolon⟩, created_unsorted h, hn⟩

/-- The text of a range is valid where ranges are. -/
theorem created_range (ho : Numbers env.split data) (hr : allowedByOptions env.split data .addressRange)
    (hm : allowedByOptions env.split data .mask → ¬ allowedByOptions env.split data .addressMask)
    (hp : ¬ allowedByOptions env.split data .requiredPort) (calls : List (ParseEnv × Str)) (penv : ParseEnv) {s : Str} {lo hi : Option Nat}
    (hw : WrittenRange s lo hi) : ∃ m, (Validator.validate penv s (Validator.validateAll calls v)).2 = .ok (true, m) := by
  obtain ⟨_, _, hd4, hd6, hdp⟩ := created_flags h ho.noDefault
  have hone : OneEntry v s := ⟨Parser.bounds_ne hw, listed_separates (.range (written_bare hw _) hw) v,
    ⟨created_off h ho.hash, created_off h ho.semicolon⟩⟩
  have hport : PortOf penv v.config [] 0 := portOf_none penv (created_off h hp) hdp
  by_cases hmask : allowedByOptions env.split data .mask
  · have hslash : '/' ∉ s := fun h1 => absurd (Parser.bounds_chars hw _ h1) (by decide)
    obtain ⟨r, h1, _⟩ := (C97_accepted penv v s s s [] s [] lo hi 0 ⟨created_off h ho.lookup, created_on h hmask, created_off h (hm hmask),
      created_on h hr, created_protocol h, hone, created_unsorted h, hd4, hd6⟩ (written_trims hw) ⟨hslash, .inl ⟨rfl, rfl⟩⟩ (written_bare hw _) hw
      hport).1 128 (created_dropped h lo hi) (.inl ⟨rfl, rfl⟩)
    exact valid_of_parse h calls penv s h1
  · obtain ⟨r, h1, _⟩ := (C86_accepted penv v s s s [] lo hi 0 ⟨created_off h ho.lookup, created_off h hmask, created_on h hr, created_protocol h, hone,
      created_unsorted h⟩ (written_trims hw) (written_bare hw _) hw hport).1 (created_dropped h lo hi)
    exact valid_of_parse h calls penv s h1

end

/-- C119: the text of any address with a mask made of a number of bits, printed with or without its port and mask, is valid for a validator
which allows what is printed and requires nothing else. -/
theorem C119_address (env : Validator.Env) (data : List Str) (v : Parser) (n : Nat) (h : Validator.create env data = .ok (v, n))
    (ho : Numbers env.split data) (calls : List (ParseEnv × Str)) (penv : ParseEnv) (hn : ∀ n, n ≤ 65535 → penv.convert (dec n) = some (n : Int))
    (db : NetDb) (mode : BitVec 32) (a : Addr) (k : Nat) (hm : PlainMode mode) (hma : mode &&& STRING_IP_MASK_AS_ADDRESS = 0)
    (hk : ip a.getMask = prefixMask k) (hk' : k ≤ 128) (hv : isV4 (ip a.getIpv6.addr) → 96 ≤ k)
    (hport : PrintsPort mode → PortsByOptions env.split data) (hport' : ¬ PrintsPort mode → ¬ allowedByOptions env.split data .requiredPort)
    (hmask : PrintsMask mode a → allowedByOptions env.split data .mask) :
    ∃ s, a.toIpv4or6String db mode = .ok s ∧ ∃ m, (Validator.validate penv s (Validator.validateAll calls v)).2 = .ok (true, m) := by
  obtain ⟨_, _, hd4, hd6, hdp⟩ := created_flags h ho.noDefault
  obtain ⟨s, r, h1, h2, _⟩ := C44_print_parse_partial penv db v mode a k hm hma hk hk' hv
    { lookup := created_off h ho.lookup
      protocol := by rw [(created_rest h).2.1]; decide
      comments := ⟨created_off h ho.hash, created_off h ho.semicolon⟩
      sort := created_unsorted h
      numbers := hn
      port := fun h1 => (hport h1).imp (created_on h) (created_on h)
      noPort := fun h1 => ⟨created_off h (hport' h1), .inl hdp⟩
      mask := fun h1 => created_on h (hmask h1)
      noMask := fun _ => .inr ⟨hd4, hd6⟩ }
  exact ⟨s, h1, valid_of_parse h calls penv s h2⟩

/-- C119: so is the text of any range which has addresses, printed without ports and masks, where ranges are allowed. -/
theorem C119_range (env : Validator.Env) (data : List Str) (v : Parser) (n : Nat) (h : Validator.create env data = .ok (v, n))
    (ho : Numbers env.split data) (hr : allowedByOptions env.split data .addressRange)
    (hm : allowedByOptions env.split data .mask → ¬ allowedByOptions env.split data .addressMask)
    (hp : ¬ allowedByOptions env.split data .requiredPort) (calls : List (ParseEnv × Str)) (penv : ParseEnv) (db : NetDb) (r : Range)
    (hd : HasAddresses r) :
    ∃ s, r.toStr db STRING_IP_ADDRESS = .ok s ∧ ∃ m, (Validator.validate penv s (Validator.validateAll calls v)).2 = .ok (true, m) := by
  obtain ⟨s, h1, h2⟩ := C87_text db r hd
  exact ⟨s, h1, created_range h ho hr hm hp calls penv h2⟩

/-- C119: so is the text of any list of such ranges with commas in between, where these are allowed. -/
theorem C119_list (env : Validator.Env) (data : List Str) (v : Parser) (n : Nat) (h : Validator.create env data = .ok (v, n))
    (ho : Numbers env.split data) (hr : allowedByOptions env.split data .addressRange)
    (hc : allowedByOptions env.split data .multiAddressesCommas)
    (hm : allowedByOptions env.split data .mask → ¬ allowedByOptions env.split data .addressMask)
    (hp : ¬ allowedByOptions env.split data .requiredPort) (calls : List (ParseEnv × Str)) (penv : ParseEnv) (db : NetDb) (l : List Range)
    (hd : ∀ r ∈ l, HasAddresses r) :
    ∃ s, Range.toStrAll db STRING_IP_ADDRESS ",".toList l true = .ok s
      ∧ ∃ m, (Validator.validate penv s (Validator.validateAll calls v)).2 = .ok (true, m) := by
  have htexts : ∃ ts : List Str, List.Forall₂ (fun r t => r.toStr db STRING_IP_ADDRESS = .ok t ∧ WrittenRange t (boundsOf r).1 (boundsOf r).2) l ts := by
    induction l with
    | nil => exact ⟨[], .nil⟩
    | cons r l ih =>
      obtain ⟨ts, h1⟩ := ih fun r hr => hd r (List.mem_cons_of_mem _ hr)
      obtain ⟨t, h2⟩ := C87_text db r (hd r List.mem_cons_self)
      exact ⟨t :: ts, .cons h2 h1⟩
  obtain ⟨ts, hts⟩ := htexts
  have h1 := Ostream.toStrAll_of (db := db) ",".toList (hts.imp fun _ _ h => h.1) true
  rw [if_pos rfl] at h1
  refine ⟨_, h1, ?_⟩
  rw [C91_validator env data v n h (.inl hc) ⟨ho.hash, ho.semicolon⟩]
  intro e he
  unfold items at he
  obtain ⟨he, hne⟩ := List.mem_filter.1 he
  have het : e ∈ ts := by
    by_cases h0 : ts = []
    · subst h0
      have : fields (separates v) (",".toList.intercalate []) = [[]] := rfl
      rw [this, List.mem_singleton] at he
      exact absurd he (by simpa using hne)
    · rw [show ",".toList = [','] from rfl, fields_intercalate (separates v) ',' (by rw [separates, created_on h hc]; rfl) ts (fun t ht => by
        obtain ⟨r, _, _, hw⟩ := forall2_right hts t ht
        exact listed_separates (.range (written_bare hw _) hw) v) h0] at he
      exact he
  obtain ⟨r, _, _, hw⟩ := forall2_right hts e het
  exact created_range h ho hr hm hp calls penv hw

/-- The full claim: where ranges, ports and masks are allowed, the text of any range which has addresses is valid in the default mode too. -/
def C119_claim : Prop :=
  ∀ (env : Validator.Env) (data : List Str) (v : Parser) (n : Nat), Validator.create env data = .ok (v, n) → Numbers env.split data →
    allowedByOptions env.split data .addressRange → allowedByOptions env.split data .mask → allowedByOptions env.split data .port →
    ∀ penv : ParseEnv, (∀ n, n ≤ 65535 → penv.convert (dec n) = some (n : Int)) → ∀ (db : NetDb) (r : Range) (s : Str), HasAddresses r →
      r.toStr db STRING_IP_ALL = .ok s → ∃ m, (Validator.validate penv s (Validator.validateAll [] v)).2 = .ok (true, m)

/-- C119: in the default mode, which prints the port and the mask, the text of a range is valid exactly when it has no end or only IPv4 addresses. -/
theorem C119_default_exact (env : Validator.Env) (data : List Str) (v : Parser) (n : Nat) (h : Validator.create env data = .ok (v, n))
    (ho : Numbers env.split data) (hr : allowedByOptions env.split data .addressRange) (hm : allowedByOptions env.split data .mask)
    (hp : allowedByOptions env.split data .port) (calls : List (ParseEnv × Str)) (penv : ParseEnv)
    (hn : ∀ n, n ≤ 65535 → penv.convert (dec n) = some (n : Int)) (db : NetDb) (r : Range) (k : Nat) (hd : HasAddresses r)
    (hk : k ≤ 128) (hv : isV4 (ip (printedBound r).getIpv6.addr) → 96 ≤ k) (hk' : ip (printedBound r).getMask = prefixMask k) :
    ∃ s, r.toStr db STRING_IP_ALL = .ok s
      ∧ ((∃ m, (Validator.validate penv s (Validator.validateAll calls v)).2 = .ok (true, m)) ↔ r.hasTo = false ∨ AllIpv4 r) := by
  have hall := created_readsAll h ho hr hm hp hn
  obtain ⟨s, h1, h2, _⟩ := C87_default_exact penv db v r k hall hd hk hv hk'
  refine ⟨s, h1, fun h3 => ?_, fun h3 => ?_⟩
  · refine Classical.byContradiction fun h4 => ?_
    have ht : r.hasTo = true := by
      cases h5 : r.hasTo with
      | true => rfl
      | false => exact absurd (.inl h5) h4
    obtain ⟨p', h5, _, _, h6, _⟩ := C87_default_refused penv db v r s hall hd ht (fun h5 => h4 (.inr h5)) h1
    exact invalid_of_parse h calls penv s (by rw [h5]; exact h6) h3
  · obtain ⟨r', h4, _⟩ := h2.2 h3
    exact valid_of_parse h calls penv s h4

/-! ### Examples -/

/-- The options of the examples. -/
def printOptions : List Str := ["address=range commas".toList, "port".toList, "mask".toList]

theorem printOptions_count : sampleCount printOptions = some 0 := by decide +kernel

theorem printOptions_numbers : Numbers validatorEnv.split printOptions := by
  refine ⟨?_, ?_, ?_, by decide⟩ <;> exact sample_off printOptions_count _ (by decide +kernel)

theorem printOptions_on : allowedByOptions validatorEnv.split printOptions .addressRange ∧ allowedByOptions validatorEnv.split printOptions .mask
    ∧ allowedByOptions validatorEnv.split printOptions .port ∧ allowedByOptions validatorEnv.split printOptions .multiAddressesCommas := by
  refine ⟨?_, ?_, ?_, ?_⟩ <;> exact sample_on printOptions_count _ (by decide +kernel)

theorem C119_claim_fails : ¬ C119_claim := by
  intro h
  obtain ⟨s, h1, h2⟩ := C119_default_exact validatorEnv printOptions (sampleValidator printOptions) 0 (sampleValidator_created printOptions_count) printOptions_numbers
    printOptions_on.1 printOptions_on.2.1 printOptions_on.2.2.1 [] sampleEnv (fun n _ => sampleConvert_dec n) sampleDb sixRange 128
    ⟨by unfold Defined; decide, fun _ => by decide⟩ (by decide) (fun h => absurd h (by decide)) (by decide)
  have h3 := h validatorEnv printOptions (sampleValidator printOptions) 0 (sampleValidator_created printOptions_count) printOptions_numbers
    printOptions_on.1 printOptions_on.2.1 printOptions_on.2.2.1 sampleEnv (fun n _ => sampleConvert_dec n) sampleDb sixRange s
    ⟨by unfold Defined; decide, fun _ => by decide⟩ h1
  rcases h2.1 h3 with h4 | h4
  · exact absurd h4 (by decide)
  · exact absurd (h4.2 (by decide)) (by decide)

/-- 10.0.0.5, with its port and mask, the range from ::1 to ::5, and a list of ranges. -/
example : (∃ s, (sampleV4 10 0 0 5).toIpv4or6String sampleDb STRING_IP_ALL = .ok s
      ∧ ∃ m, (Validator.validate sampleEnv s (Validator.validateAll [] (sampleValidator printOptions))).2 = .ok (true, m))
    ∧ (∃ s, sixRange.toStr sampleDb STRING_IP_ADDRESS = .ok s
      ∧ ∃ m, (Validator.validate sampleEnv s (Validator.validateAll [] (sampleValidator printOptions))).2 = .ok (true, m))
    ∧ ∃ s, Range.toStrAll sampleDb STRING_IP_ADDRESS ",".toList [sixRange, fourRange] true = .ok s
      ∧ ∃ m, (Validator.validate sampleEnv s (Validator.validateAll [] (sampleValidator printOptions))).2 = .ok (true, m) :=
  ⟨C119_address validatorEnv printOptions (sampleValidator printOptions) 0 (sampleValidator_created printOptions_count) printOptions_numbers [] sampleEnv
      (fun n _ => sampleConvert_dec n) sampleDb STRING_IP_ALL _ 128 ⟨by decide, by decide, by decide, by decide⟩ (by decide) (by decide) (by decide)
      (fun _ => by decide) (fun _ => .inl printOptions_on.2.2.1) (fun h => absurd (by unfold PrintsPort; decide) h) (fun _ => printOptions_on.2.1),
    C119_range validatorEnv printOptions (sampleValidator printOptions) 0 (sampleValidator_created printOptions_count) printOptions_numbers printOptions_on.1
      (fun _ => sample_off printOptions_count _ (by decide +kernel)) (sample_off printOptions_count _ (by decide +kernel)) [] sampleEnv sampleDb sixRange
      ⟨by unfold Defined; decide, fun _ => by decide⟩,
    C119_list validatorEnv printOptions (sampleValidator printOptions) 0 (sampleValidator_created printOptions_count) printOptions_numbers printOptions_on.1 printOptions_on.2.2.2
      (fun _ => sample_off printOptions_count _ (by decide +kernel)) (sample_off printOptions_count _ (by decide +kernel)) [] sampleEnv sampleDb
      [sixRange, fourRange] fun r hr => by
        rcases List.mem_cons.1 hr with rfl | hr
        · exact ⟨by unfold Defined; decide, fun _ => by decide⟩
        · obtain rfl := List.mem_singleton.1 hr
          exact ⟨by unfold Defined; decide, fun _ => by decide⟩⟩

end Verif
