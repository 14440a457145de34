import Verif.Lemmas.ParserMask
import Verif.Props.ParserList
import Verif.Props.AddrMask

/-!
# Properties C40 and C56: masks written in the input and default masks
-/

namespace Verif

open Spec

/-- The text is one entry for this parser: it is not empty and, where several addresses are allowed, there is no separator in
it; comments are not allowed. -/
structure OneEntry (p : Parser) (inp : Str) : Prop where
  nonempty : inp ≠ []
  separator : ∀ x ∈ inp, separates p x = false
  comments : NoComments p

/-- The address is there: it is not empty, and does not consist of a port only. It has no space at its ends and no slash. -/
structure HasAddress (a : Str) : Prop where
  nonempty : a ≠ []
  notPort : 2 ≤ a.count ':' ∨ a.head? ≠ some ':'
  noSpace : Parser.trimString a = a
  noSlash : '/' ∉ a

/-- The address is written with the IPv4 syntax: at most one colon, no bracket and, if ports are not allowed and there is
one colon, a period before it. -/
def WrittenAsIpv4 (p : Parser) (a : Str) : Prop :=
  a.count ':' < 2 ∧ a.head? ≠ some '[' ∧ ']' ∉ a
    ∧ (p.config.flags .port = true ∨ p.config.flags .requiredPort = true ∨ ':' ∉ a ∨ '.' ∈ a.takeWhile (· ≠ ':'))

instance (p : Parser) (a : Str) : Decidable (WrittenAsIpv4 p a) := inferInstanceAs (Decidable (_ ∧ _))

/-- The number of bits of the network part which a number may define. -/
def maskBits (p : Parser) (a : Str) (r : Range) : Nat := if WrittenAsIpv4 p a ∧ r.lo.isIpv4 = true then 32 else 128

/-! ### The vocabulary above in terms of the model -/

theorem parse_one (env : ParseEnv) (inp : Str) (p : Parser) (h : OneEntry p inp) :
    Parser.parse env inp p = (Parser.parseCidr env inp [] >>= fun l => PM.lift (Parser.sortResult p.config.sort l)) p := by
  have hc := (noComments_iff p).2 h.comments
  by_cases hl : Parser.separators p.config = []
  · rw [Parser.parse_single env inp p hl]
    simp only [PM.bind_def, Parser.parseSingle_plain env inp [] p hc]
  · rw [Parser.parse_list env inp p hl, Parser.entriesOf_one p.config inp h.nonempty
      (fun x hx => by rw [isSep_eq]; exact h.separator x hx) (by simp [Parser.entryText, hc])]
    have : Parser.seqEntries env [inp] = Parser.parseCidr env inp [] := by
      rw [Parser.seqEntries]
      have : (fun l => Parser.prepend l (Parser.seqEntries env [])) = fun l => (Pure.pure l : PM (List Range)) := by
        funext l
        rw [Parser.seqEntries, Parser.prepend_pure, List.append_nil]
      rw [this, PM.bind_pure]
    rw [this]

theorem parse_one_unsorted (env : ParseEnv) (inp : Str) (p : Parser) (h : OneEntry p inp) (hs : Unsorted p) :
    Parser.parse env inp p = Parser.parseCidr env inp [] p := by
  rw [parse_one env inp p h]
  have : (fun l => PM.lift (Parser.sortResult p.config.sort l)) = fun l => (Pure.pure l : PM (List Range)) := by
    funext l
    rw [sortResult_unsorted _ hs]
    rfl
  rw [this, PM.bind_pure]

theorem asIpv4_iff (p : Parser) (a : Str) : Parser.asIpv4 p.config a = true ↔ WrittenAsIpv4 p a := by
  rw [Parser.asIpv4, WrittenAsIpv4]
  by_cases h1 : a.count ':' ≥ 2
  · rw [if_pos h1]
    simp only [Bool.false_eq_true, false_iff, not_and]
    omega
  · rw [if_neg h1]
    by_cases h2 : a.head? = some '[' ∨ ']' ∈ a
    · rw [if_pos h2]
      simp only [Bool.false_eq_true, false_iff]
      rintro ⟨_, h3, h4, _⟩
      rcases h2 with h2 | h2
      · exact h3 h2
      · exact h4 h2
    · rw [if_neg h2]
      rw [not_or] at h2
      have h1' : a.count ':' < 2 := by omega
      by_cases h3 : (!p.config.flags .port && !p.config.flags .requiredPort) = true
      · rw [if_pos h3]
        simp only [Bool.and_eq_true, Bool.not_eq_true'] at h3
        cases h4 : Parser.splitFirst ':' a with
        | none =>
          have := Parser.splitFirst_none.1 h4
          simp [h1', h2, this]
        | some x =>
          obtain ⟨h5, h6⟩ := Parser.splitFirst_some (a := x.1) (b := x.2) h4
          have hm : ':' ∈ a := by rw [h5]; simp
          have ht : a.takeWhile (· ≠ ':') = x.1 := by
            rw [h5, List.takeWhile_append_of_pos]
            · simp
            · intro c hc
              simp only [decide_eq_true_eq]
              rintro rfl
              exact h6 hc
          dsimp only
          rw [decide_eq_true_eq, ht]
          simp [h1', h2, h3, hm]
      · rw [if_neg h3]
        have : p.config.flags .port = true ∨ p.config.flags .requiredPort = true := by
          cases h4 : p.config.flags .port <;> cases h5 : p.config.flags .requiredPort <;> simp [h4, h5] at h3 ⊢
        simp [h1', h2, this, ← or_assoc]

theorem maskLimit_eq (p : Parser) (a : Str) (r : Range) :
    Parser.maskLimit (Parser.asIpv4 p.config a && r.lo.isIpv4) = maskBits p a r := by
  rw [Parser.maskLimit, maskBits]
  have := asIpv4_iff p a
  by_cases h1 : WrittenAsIpv4 p a
  · rw [this.2 h1]
    cases h2 : r.lo.isIpv4 <;> simp [h1]
  · have h3 : Parser.asIpv4 p.config a = false := by
      cases h : Parser.asIpv4 p.config a with
      | false => rfl
      | true => exact absurd (this.1 h) h1
    simp [h3, h1]

/-- The text of an entry with a mask, cut. -/
theorem cut_slash {a t : Str} (ha : HasAddress a) (hlast : ∀ x, t.getLast? = some x → Parser.isSpace x = false) :
    Parser.splitFirst '/' (Parser.trimString (a ++ '/' :: t)) = some (a, t) := by
  have hhead : ∀ c, a.head? = some c → Parser.isSpace c = false := by
    intro c hc
    have h := ha.noSpace
    rw [Parser.trimString_eq] at h
    cases hb : Parser.isSpace c with
    | false => rfl
    | true =>
      exfalso
      cases a with
      | nil => cases hc
      | cons y s =>
        cases hc
        have hle : (Parser.rtrim ((c :: s).dropWhile Parser.isSpace)).length ≤ s.length := by
          have h1 := (Parser.rtrim_prefix ((c :: s).dropWhile Parser.isSpace)).length_le
          have h2 : ((c :: s).dropWhile Parser.isSpace).length ≤ s.length := by
            rw [List.dropWhile_cons, if_pos hb]
            exact (List.dropWhile_suffix _).length_le
          omega
        rw [h] at hle
        simp at hle
  rw [Parser.trimString_self ?_ ?_, Parser.splitFirst_append ha.noSlash]
  · intro c hc
    cases ha' : a with
    | nil => exact absurd ha' ha.nonempty
    | cons y s =>
      rw [ha'] at hc
      exact hhead c (by rw [ha']; simpa using hc)
  · intro c hc
    rw [List.getLast?_append, List.getLast?_cons] at hc
    simp only [Option.some_or, Option.some.injEq] at hc
    cases ht : t.getLast? with
    | none =>
      rw [ht] at hc
      simp at hc
      rw [← hc]
      decide
    | some x =>
      rw [ht] at hc
      simp at hc
      rw [← hc]
      exact hlast x ht

/-! ## C40 -/

/-- The same parser with masks forbidden. -/
def forbidMask (p : Parser) : Parser := (Parser.setAllow 9 false p).1

theorem forbidMask_agree (p : Parser) :
    Parser.Agree p.config (forbidMask p).config ∧ (forbidMask p).config.flags .mask = false
      ∧ (forbidMask p).error = p.error ∧ (forbidMask p).errorCount = p.errorCount
      ∧ (∀ f, f ≠ Allow.mask → (forbidMask p).config.flags f = p.config.flags f)
      ∧ (forbidMask p).config.sort = p.config.sort := by
  refine ⟨?_, rfl, rfl, rfl, ?_, rfl⟩
  · exact ⟨by constructor <;> rfl, rfl⟩
  · intro f hf
    cases f <;> first | rfl | exact absurd rfl hf

/-- C40. Let `a` be an address which, without mask, gives the ranges `l` and no error, and `t` a decimal number. Then "a/t"
gives an error and no range if the number is too large for one of them. Otherwise it gives the same ranges, of which the
mask is made of `t` ones (after the 96 of the IPv4 prefix if `a` is an IPv4 address), and no error. -/
theorem C40_decimal_mask (env : ParseEnv) (p : Parser) (a t : Str) (l : List Range) (hm : p.config.flags .mask = true)
    (ha : HasAddress a) (h1 : OneEntry p a) (hs : Unsorted p) (ht0 : t ≠ []) (ht : ∀ c ∈ t, c.isDigit = true)
    (halone : Parser.parse env a (forbidMask p) = (forbidMask p, .ok l)) :
    ((∃ r ∈ l, maskBits p a r < Nat.ofDigitChars 10 t 0) →
      (Parser.parse env (a ++ '/' :: t) p).2 = .ok []
        ∧ p.getErrorCount < (Parser.parse env (a ++ '/' :: t) p).1.getErrorCount)
    ∧ ((∀ r ∈ l, Nat.ofDigitChars 10 t 0 ≤ maskBits p a r) →
      ∃ l', Parser.parse env (a ++ '/' :: t) p = (p, .ok l')
        ∧ List.Forall₂ (fun r r' => r'.hasFrom = r.hasFrom ∧ r'.hasTo = r.hasTo ∧ r'.hi = r.hi ∧ SameButMask r.lo r'.lo
            ∧ r'.lo.maskDefined = true
            ∧ ip r'.lo.getMask = prefixMask (128 - maskBits p a r + Nat.ofDigitChars 10 t 0)) l l') := by
  obtain ⟨g1, g2, g3, g4, g5, g6⟩ := forbidMask_agree p
  have hcm := (noComments_iff p).2 h1.comments
  -- the address alone
  have hsep : ∀ x, separates (forbidMask p) x = separates p x := fun x => by
    rw [separates, separates, g5 _ (by decide), g5 _ (by decide), g5 _ (by decide)]
  have h1' : OneEntry (forbidMask p) a :=
    ⟨h1.nonempty, fun x hx => by rw [hsep]; exact h1.separator x hx,
      ⟨by rw [g5 _ (by decide)]; exact h1.comments.1, by rw [g5 _ (by decide)]; exact h1.comments.2⟩⟩
  rw [parse_one_unsorted env a _ h1' (by rw [Unsorted, g6]; exact hs), Parser.parseCidr_nomask env a [] _ g2,
    ha.noSpace] at halone
  have haddr : Parser.parseAddress env a t [] p = (p, .ok (Parser.asIpv4 p.config a, l)) := by
    rw [Parser.parseAddress_mask env a t [] p ⟨ha.nonempty, ha.notPort⟩]
    obtain ⟨r1, r2, r3, r4, r5⟩ := Parser.rel_parseAddress g1 env a [] [] p (forbidMask p) rfl rfl g3.symm g4.symm
    cases hpa : Parser.parseAddress env a [] [] (forbidMask p) with
    | mk q r =>
      rw [hpa] at halone r1 r2 r3
      cases r with
      | ok x =>
        simp only [Prod.mk.injEq, Res.ok.injEq] at halone
        have hpq : Parser.parseAddress env a [] [] p = (p, .ok x) := by
          cases hpp : Parser.parseAddress env a [] [] p with
          | mk q' r' =>
            rw [hpp] at r1 r2 r3 r4
            dsimp only at r1 r2 r3 r4
            rw [r1]
            congr 1
            rw [halone.1, g3] at r2
            rw [halone.1, g4] at r3
            cases q' with
            | mk c e n =>
              dsimp only at r2 r3 r4
              rw [r2, r3, r4]
        rw [hpq]
        have := Parser.parseAddress_fst env a [] [] p p x ⟨ha.nonempty, ha.notPort⟩ hpq
        rw [← this, ← halone.2]
      | throw e => simp at halone
      | ub w => simp at halone
  -- the entry
  have h2 : OneEntry p (a ++ '/' :: t) := by
    refine ⟨by simp, ?_, h1.comments⟩
    intro x hx
    rcases List.mem_append.1 hx with hx | hx
    · exact h1.separator x hx
    · have hxx : x = '/' ∨ x.isDigit = true := by
        rcases List.mem_cons.1 hx with rfl | hx
        · exact Or.inl rfl
        · exact Or.inr (ht x hx)
      cases hb : separates p x with
      | false => rfl
      | true =>
        simp only [separates, Bool.or_eq_true, Bool.and_eq_true, beq_iff_eq] at hb
        rcases hb with (⟨_, rfl⟩ | ⟨_, rfl⟩) | ⟨_, rfl⟩ <;> exact absurd hxx (by decide)
  have hcut := cut_slash (t := t) ha fun x hx => Parser.isDigit_not_space x (ht x (List.mem_of_getLast? hx))
  rw [parse_one_unsorted env _ p h2 hs, Parser.parseCidr_mask env _ [] p hm, hcut]
  simp only [Option.getD_some, haddr]
  constructor
  · rintro ⟨r, hr, hlt⟩
    obtain ⟨errs, l', he, hml⟩ := Parser.maskLoop_error env t ht0 ht (Parser.asIpv4 p.config a) l
      ⟨r, hr, by rw [maskLimit_eq]; exact hlt⟩ p
    rw [hml]
    have hlen : 0 < errs.length := List.length_pos_iff.2 he
    have hn : ¬ p.errorCount = (Parser.emitAll errs p).errorCount := by
      simp only [Parser.emitAll]
      omega
    refine ⟨by simp [hn], ?_⟩
    simp only [Parser.getErrorCount, Parser.emitAll]
    omega
  · intro hall
    rw [Parser.maskLoop_ok env t ht0 ht (Parser.asIpv4 p.config a) l (fun r hr => by rw [maskLimit_eq]; exact hall r hr) p]
    refine ⟨_, by simp only [if_pos, List.nil_append]; rfl, ?_⟩
    clear haddr halone
    induction l with
    | nil => exact List.Forall₂.nil
    | cons r l ih =>
      refine List.Forall₂.cons ⟨rfl, rfl, rfl, ⟨rfl, rfl, rfl, rfl, rfl, rfl, rfl⟩, rfl, ?_⟩
        (ih fun x hx => hall x (List.mem_cons_of_mem _ hx))
      have hr := hall r List.mem_cons_self
      have hb : maskBits p a r ≤ 128 := by
        rw [maskBits]
        split <;> omega
      show ip (prefixBytes _) = _
      rw [maskLimit_eq, ip_prefixBytes _ (by omega), Nat.add_comm]

/-- Masks allowed, no lookup. -/
def maskParser : Parser := ParserOp.runAll [(sampleEnv, .setAllow 9 true)] sampleParser

/-- The size of the mask of each range. -/
def maskSizes (r : Res (List Range)) : Option (List Int) :=
  match r with
  | .ok l => some (l.map fun x => x.lo.getMaskSize)
  | _ => none

instance (p : Parser) (a : Str) : Decidable (OneEntry p a) :=
  decidable_of_iff (a ≠ [] ∧ (∀ x ∈ a, separates p x = false)
      ∧ (p.config.flags .commentHash = false ∧ p.config.flags .commentSemicolon = false))
    ⟨fun h => ⟨h.1, h.2.1, h.2.2⟩, fun h => ⟨h.1, h.2, h.3⟩⟩

instance (a : Str) : Decidable (HasAddress a) :=
  decidable_of_iff (a ≠ [] ∧ (2 ≤ a.count ':' ∨ a.head? ≠ some ':') ∧ Parser.trimString a = a ∧ '/' ∉ a)
    ⟨fun h => ⟨h.1, h.2.1, h.2.2.1, h.2.2.2⟩, fun h => ⟨h.1, h.2, h.3, h.4⟩⟩

/-- The three hypotheses about "10.1.2.3" and "2001:db8::" hold, the sizes are those expected. -/
example :
    maskParser.config.flags .mask = true ∧ HasAddress "10.1.2.3".toList ∧ OneEntry maskParser "10.1.2.3".toList
      ∧ HasAddress "2001:db8::".toList ∧ OneEntry maskParser "2001:db8::".toList
      ∧ WrittenAsIpv4 maskParser "10.1.2.3".toList ∧ ¬ WrittenAsIpv4 maskParser "2001:db8::".toList
      ∧ (Parser.parse sampleEnv "10.1.2.3".toList (forbidMask maskParser)).1.errorMessages = []
      ∧ fromTexts (Parser.parse sampleEnv "10.1.2.3".toList (forbidMask maskParser)).2 = some ["10.1.2.3".toList]
      ∧ maskSizes (Parser.parse sampleEnv "10.1.2.3/24".toList maskParser).2 = some [120]
      ∧ maskSizes (Parser.parse sampleEnv "2001:db8::/024".toList maskParser).2 = some [24]
      ∧ maskSizes (Parser.parse sampleEnv "10.1.2.3/33".toList maskParser).2 = some []
      ∧ maskSizes (Parser.parse sampleEnv "2001:db8::/99999999999".toList maskParser).2 = some [] := by
  refine ⟨?_, ?_, ?_, ?_, ?_, ?_, ?_, ?_, ?_, ?_, ?_, ?_, ?_⟩ <;> decide +kernel

/-- C40, what "IPv4" means: an IPv4 address written with the IPv6 syntax gets an IPv6 mask. -/
theorem C40_mapped_address_is_ipv6 :
    maskSizes (Parser.parse sampleEnv "::ffff:10.1.2.3/24".toList maskParser).2 = some [24]
      ∧ fromTexts (Parser.parse sampleEnv "::ffff:10.1.2.3/24".toList maskParser).2 = some ["::ffff:10.1.2.3".toList] := by
  constructor <;> decide +kernel

/-! ## C56 -/

/-- The default mask is within brackets. -/
def Bracketed (m : Str) : Prop := m.head? = some '[' ∧ m.getLast? = some ']'

instance (m : Str) : Decidable (Bracketed m) := inferInstanceAs (Decidable (_ ∧ _))

/-- The mask is one for IPv6 addresses: it is within brackets, has a colon or is a number larger than 32. -/
def MaskForIpv6 (env : ParseEnv) (m : Str) : Prop := Bracketed m ∨ ':' ∈ m ∨ ∃ n, env.convert m = some n ∧ n > 32

/-- The mask as it is written after an address. -/
def maskAsWritten (m : Str) : Str := if ':' ∈ m ∧ ¬ Bracketed m then '[' :: m ++ [']'] else m

/-- C56: where a default mask was accepted, an address of its family without a mask is read as if that mask had been
written. This is false of the code. -/
def C56_claim : Prop :=
  ∀ (env : ParseEnv) (p p' : Parser) (a m : Str), m ≠ [] → (∀ x, m.getLast? = some x → Parser.isSpace x = false) →
    Parser.setDefaultMask env m p = (p', .ok ()) → p'.config.flags .mask = true → HasAddress a → OneEntry p' a →
    (∀ x ∈ m, separates p' x = false) →
    (WrittenAsIpv4 p' a ↔ ¬ MaskForIpv6 env m) →
    Parser.parse env a p' = Parser.parse env (a ++ '/' :: maskAsWritten m) p'

/-- C56: the default mask "64" has no effect on an IPv6 address. -/
theorem C56_numeric_ipv6_ignored_fails :
    maskSizes (Parser.parse sampleEnv "2001:db8::1".toList (Parser.setDefaultMask sampleEnv "64".toList maskParser).1).2
        = some [128]
      ∧ maskSizes (Parser.parse sampleEnv "2001:db8::1/64".toList
          (Parser.setDefaultMask sampleEnv "64".toList maskParser).1).2 = some [64] := by
  constructor <;> decide +kernel

theorem C56_claim_fails : ¬ C56_claim := by
  intro h
  have h1 := h sampleEnv maskParser (Parser.setDefaultMask sampleEnv "64".toList maskParser).1 "2001:db8::1".toList
    "64".toList (by decide) (by decide +kernel) rfl (by decide) (by decide +kernel) (by decide +kernel) (by decide +kernel)
    (by
      have h6 : MaskForIpv6 sampleEnv "64".toList := Or.inr (Or.inr ⟨64, by decide +kernel, by decide⟩)
      have h4 : ¬ WrittenAsIpv4 (Parser.setDefaultMask sampleEnv "64".toList maskParser).1 "2001:db8::1".toList := by
        decide +kernel
      exact ⟨fun h => absurd h h4, fun h => absurd h6 h⟩)
  have h2 := C56_numeric_ipv6_ignored_fails
  have e : maskAsWritten "64".toList = "64".toList := by decide +kernel
  rw [e] at h1
  have h3 : "2001:db8::1".toList ++ '/' :: "64".toList = "2001:db8::1/64".toList := by decide +kernel
  rw [h3] at h1
  rw [h1, h2.2] at h2
  exact absurd h2.1 (by decide)

theorem setDefaultMask_config (env : ParseEnv) (m : Str) (p p' : Parser) (h0 : m ≠ [])
    (h : Parser.setDefaultMask env m p = (p', .ok ())) :
    (¬ MaskForIpv6 env m → p'.config.defaultMask4 = m)
      ∧ (':' ∈ m → '[' :: p'.config.defaultMask6 ++ [']'] = maskAsWritten m ∧ ':' ∈ p'.config.defaultMask6) := by
  rw [Parser.setDefaultMask, PM.config_bind, if_neg h0] at h
  by_cases hb : Bracketed m
  · rw [if_pos (by simp [hb.1, hb.2])] at h
    refine ⟨fun hn => absurd (Or.inl hb) hn, fun hc => ?_⟩
    have hp : p'.config.defaultMask6 = (m.drop 1).dropLast := by
      cases h
      rfl
    rw [hp, maskAsWritten, if_neg (by simp [hb])]
    obtain ⟨b1, b2⟩ := hb
    cases m with
    | nil => exact absurd rfl h0
    | cons y s =>
      cases b1
      have hs : s.getLast? = some ']' := by
        cases s with
        | nil => simp at hc
        | cons z s => simpa [List.getLast?_cons_cons] using b2
      have hsd : s = s.dropLast ++ [']'] := by
        obtain ⟨t, rfl⟩ := List.getLast?_eq_some_iff.1 hs
        simp
      refine ⟨?_, ?_⟩
      · show '[' :: (s.dropLast ++ [']']) = _
        rw [← hsd]
      · show ':' ∈ s.dropLast
        rw [hsd] at hc
        simpa using hc
  · rw [if_neg (by rw [Bool.and_eq_true]; exact fun h' => hb ⟨by simpa using h'.1, by simpa using h'.2⟩)] at h
    split at h
    · cases h
    · by_cases hc : ':' ∈ m
      · rw [if_pos (by simpa using hc)] at h
        refine ⟨fun hn => absurd (Or.inr (Or.inl hc)) hn, fun _ => ?_⟩
        have hp : p'.config.defaultMask6 = m := by
          cases h
          rfl
        rw [hp, maskAsWritten, if_pos ⟨hc, hb⟩]
        exact ⟨rfl, hc⟩
      · rw [if_neg (by simpa using hc)] at h
        refine ⟨fun hn => ?_, fun hc' => absurd hc' hc⟩
        cases hv : env.convert m with
        | none =>
          rw [hv] at h
          cases h
          rfl
        | some v =>
          rw [hv] at h
          dsimp only at h
          split at h
          · cases h
          · split at h
            · rename_i h33
              exact absurd (Or.inr (Or.inr ⟨v, hv, h33⟩)) hn
            · cases h
              rfl

/-- C56: where a default mask was accepted, an address of its family without a mask is read as if that mask had been
written. Excluded: masks for IPv6 without a colon, which are ignored (`C56_numeric_ipv6_ignored_fails`). -/
theorem C56_default_mask_partial (env : ParseEnv) (p p' : Parser) (a m : Str) (h0 : m ≠ [])
    (hlast : ∀ x, m.getLast? = some x → Parser.isSpace x = false)
    (hset : Parser.setDefaultMask env m p = (p', .ok ())) (hm : p'.config.flags .mask = true) (ha : HasAddress a)
    (h1 : OneEntry p' a) (hsep : ∀ x ∈ m, separates p' x = false)
    (hfam : (WrittenAsIpv4 p' a ∧ ¬ MaskForIpv6 env m) ∨ (¬ WrittenAsIpv4 p' a ∧ ':' ∈ m)) :
    Parser.parse env a p' = Parser.parse env (a ++ '/' :: maskAsWritten m) p' := by
  obtain ⟨c4, c6⟩ := setDefaultMask_config env m p p' h0 hset
  have hbr : ∀ x, separates p' x = true → x ≠ '[' ∧ x ≠ ']' ∧ x ≠ '/' := by
    intro x hx
    simp only [separates, Bool.or_eq_true, Bool.and_eq_true, beq_iff_eq] at hx
    rcases hx with (⟨_, rfl⟩ | ⟨_, rfl⟩) | ⟨_, rfl⟩ <;> decide
  have hw0 : maskAsWritten m ≠ [] := by
    rw [maskAsWritten]
    split
    · simp
    · exact h0
  have hws : ∀ x ∈ maskAsWritten m, separates p' x = false := by
    intro x hx
    cases hb : separates p' x with
    | false => rfl
    | true =>
      exfalso
      obtain ⟨b1, b2, b3⟩ := hbr x hb
      have hxm : x ∈ m := by
        rw [maskAsWritten] at hx
        split at hx
        · simp [b1, b2] at hx
          exact hx
        · exact hx
      rw [hsep x hxm] at hb
      cases hb
  have hwl : ∀ x, (maskAsWritten m).getLast? = some x → Parser.isSpace x = false := by
    intro x hx
    rw [maskAsWritten] at hx
    split at hx
    · rw [List.getLast?_append] at hx
      simp at hx
      rw [← hx]
      decide
    · exact hlast x hx
  have h2 : OneEntry p' (a ++ '/' :: maskAsWritten m) := by
    refine ⟨by simp, ?_, h1.comments⟩
    intro x hx
    rcases List.mem_append.1 hx with hx | hx
    · exact h1.separator x hx
    · rcases List.mem_cons.1 hx with rfl | hx
      · cases hb : separates p' '/' with
        | false => rfl
        | true => exact absurd rfl (hbr _ hb).2.2
      · exact hws x hx
  rw [parse_one env a p' h1, parse_one env _ p' h2]
  have key : Parser.parseCidr env a [] p' = Parser.parseCidr env (a ++ '/' :: maskAsWritten m) [] p' := by
    rw [Parser.parseCidr_mask env a [] p' hm, Parser.parseCidr_mask env _ [] p' hm, cut_slash ha hwl, ha.noSpace,
      Parser.splitFirst_none.2 ha.noSlash]
    simp only [Option.getD_some, Option.getD_none]
    rw [Parser.parseAddress_mask env a (maskAsWritten m) [] p' ⟨ha.nonempty, ha.notPort⟩]
    obtain ⟨errs, r, hlog⟩ := Parser.logging_parseAddress env p'.config a [] []
    have hlog := hlog p' rfl
    rw [hlog]
    cases r with
    | throw e => rfl
    | ub w => rfl
    | ok x =>
      dsimp only
      have hx := Parser.parseAddress_fst env a [] [] p' _ x ⟨ha.nonempty, ha.notPort⟩ hlog
      have hml : ∀ (l : List Range) (q : Parser), q.config = p'.config →
          Parser.maskLoop env [] x.1 l q = Parser.maskLoop env (maskAsWritten m) x.1 l q := by
        intro l
        induction l with
        | nil => exact fun q _ => rfl
        | cons r l ih =>
          intro q hq
          have hch : Parser.chooseMask q.config [] x.1 = Parser.chooseMask q.config (maskAsWritten m) x.1 := by
            rw [Parser.chooseMask, if_neg (by simp), Parser.chooseMask, if_pos hw0, hq, hx]
            rcases hfam with ⟨f1, f2⟩ | ⟨f1, f2⟩
            · rw [(asIpv4_iff p' a).2 f1, if_pos rfl, c4 f2, maskAsWritten, if_neg]
              exact fun h => f2 (Or.inr (Or.inl h.1))
            · have : Parser.asIpv4 p'.config a = false := by
                cases h : Parser.asIpv4 p'.config a with
                | false => rfl
                | true => exact absurd ((asIpv4_iff p' a).1 h) f1
              obtain ⟨c7, c8⟩ := c6 f2
              rw [this, if_neg (by simp), if_pos ⟨by rintro h; rw [h] at c8; simp at c8, c8⟩, c7]
          rw [Parser.maskLoop, Parser.maskLoop, PM.config_bind, PM.config_bind, hch]
          obtain ⟨errs', r', hlog'⟩ := Parser.logging_parseMask env q.config
            (Parser.chooseMask q.config (maskAsWritten m) x.1) r.lo (x.1 && r.lo.isIpv4)
          have hlog' := hlog' q rfl
          cases r' with
          | ok y =>
            rw [PM.bind_of_ok hlog', PM.bind_of_ok hlog']
            simp only [PM.bind_def, ih (Parser.emitAll errs' q) hq]
          | throw e => rw [PM.bind_of_throw hlog', PM.bind_of_throw hlog']
          | ub w => rw [PM.bind_of_ub hlog', PM.bind_of_ub hlog']
      rw [hml x.2 (Parser.emitAll errs p') rfl]
  simp only [PM.bind_def, key]

example :
    let p := (Parser.setDefaultMask sampleEnv "16".toList maskParser).1
    Parser.setDefaultMask sampleEnv "16".toList maskParser = (p, .ok ()) ∧ p.config.flags .mask = true
      ∧ OneEntry p "10.1.2.3".toList ∧ WrittenAsIpv4 p "10.1.2.3".toList
      ∧ maskSizes (Parser.parse sampleEnv "10.1.2.3".toList p).2 = some [112]
      ∧ maskSizes (Parser.parse sampleEnv "10.1.2.3/16".toList p).2 = some [112] := by
  refine ⟨?_, ?_, ?_, ?_, ?_, ?_⟩
  · rfl
  all_goals decide +kernel

end Verif
