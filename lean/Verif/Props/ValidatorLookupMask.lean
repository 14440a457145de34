import Verif.Props.ValidatorLookup
import Verif.Props.LookupMask

/-!
# C149: the values which an address validator with lookups and masks accepts

C133 with the option `mask=yes`: a number of bits may follow the name of the host, and it has to be one for each address of the host.
-/

namespace Verif

open Spec

namespace Spec

/-- The options ask for names of hosts with masks, which are numbers of bits: no ranges or comments, and no defaults. -/
structure HostNetworks (split : Str → List Str) (data : List Str) : Prop where
  lookup : allowedByOptions split data .addressLookup
  mask : allowedByOptions split data .mask
  number : ¬ allowedByOptions split data .addressMask
  range : ¬ allowedByOptions split data .addressRange
  hash : ¬ allowedByOptions split data .commentHash
  semicolon : ¬ allowedByOptions split data .commentSemicolon
  noDefault : ∀ o ∈ data, optionName o ≠ "default".toList ∧ optionName o ≠ "defaults".toList

/-- The text is not one of an IPv6 address: it has neither two colons nor brackets, and where ports are not allowed no colon which is not
after a period. -/
def PlainText (ports : Prop) (e : Str) : Prop :=
  e.count ':' < 2 ∧ e.head? ≠ some '[' ∧ ']' ∉ e ∧ (ports ∨ ':' ∉ e ∨ '.' ∈ e.takeWhile (· ≠ ':'))

/-- The mask `m` after the entry `e` can be the one of the address of an answer. -/
def FitsMask (ports : Prop) (e m : Str) (x : AddrInfo) : Prop :=
  m = [] ∨ (∀ c ∈ m, c.isDigit = true) ∧ Nat.ofDigitChars 10 m 0 ≤ 128 ∧ (PlainText ports e → isV4 (answerNumber x) → Nat.ofDigitChars 10 m 0 ≤ 32)

/-- The item names a host, with a port where it is required, about which the system has an answer of nothing but IP addresses; the mask
after it, if there is one, fits them all. -/
def ValidNetworkName (env : ParseEnv) (split : Str → List Str) (data : List Str) (i : Str) : Prop :=
  ∃ t e m u q l, Trims i t ∧ CutMask t e m
    ∧ Names (PortsByOptions split data) (allowedByOptions split data .requiredAddress) e u q
    ∧ (allowedByOptions split data .requiredPort → q ≠ []) ∧ hostAnswer env u q = .list l
    ∧ ∀ x ∈ l, usable x = true ∧ FitsMask (PortsByOptions split data) e m x

end Spec

/-! ### Lemmas -/

theorem maskLoop_none {env : ParseEnv} {v4 : Bool} : ∀ (rs : List Range) (p : Parser), p.config.defaultMask4 = [] → p.config.defaultMask6 = [] →
    Parser.maskLoop env [] v4 rs p = (p, .ok rs)
  | [], _, _, _ => rfl
  | r :: rs, p, h4, h6 => by
    have hc : Parser.chooseMask p.config [] v4 = [] := by
      rw [Parser.chooseMask, if_neg (by simp), h4, h6]
      cases v4 <;> rfl
    have hp : Parser.parseMask env [] r.lo (v4 && r.lo.isIpv4) p = (p, .ok r.lo) := by
      rw [Parser.parseMask, if_pos rfl]
      rfl
    rw [Parser.maskLoop, PM.config_bind, hc, PM.bind_of_ok hp, PM.bind_of_ok (maskLoop_none rs p h4 h6)]
    rfl

/-- Without a mask. -/
theorem noMask_reads {env : ParseEnv} {p : Parser} {inp t e u q : Str} {l : List AddrInfo} (h : LooksUpMask p inp) (ht : Trims inp t)
    (h4 : p.config.defaultMask4 = []) (h6 : p.config.defaultMask6 = []) (hcut : CutMask t e []) (hn : ¬ LeftOut e) (ha : Asks p e u q)
    (hq : p.config.flags .requiredPort = false ∨ q ≠ []) (hl : answerTo env p u q = .list l) (hs : ∀ x ∈ l, SafeAnswer x) :
    ∃ rs, Reads env p inp rs (badAnswers l) := by
  obtain ⟨hu, v6, h1⟩ := masked_entry (env := env) h ht hcut hn ha
  obtain ⟨errs, rs, g1, g2, g3⟩ := Parser.bound_list h.lookup hu hq v6 hl hs
  have h2 : Parser.parseAddress env e [] [] p = (Parser.emitAll errs p, .ok (Parser.asIpv4 p.config e, rs)) := by
    rw [h1, PM.bind_def, g1]
    rfl
  refine ⟨_, _, parse_looksUpMask h ht hcut h2 (maskLoop_none rs (Parser.emitAll errs p) h4 h6), ?_⟩
  rw [← g2]
  exact emitted

/-- Nothing is asked, or the port is missing. -/
theorem masked_refused {env : ParseEnv} {p : Parser} {inp t e m : Str} (h : LooksUpMask p inp) (ht : Trims inp t) (hcut : CutMask t e m)
    (hn : ¬ LeftOut e) (hno : ¬ ∃ u q, Asks p e u q ∧ (p.config.flags .requiredPort = false ∨ q ≠ [])) : Reads env p inp [] 1 := by
  have fin : ∀ {v4 : Bool} {msg : Str}, Parser.parseAddress env e m [] p = (Parser.emitAll [msg] p, .ok (v4, [])) → Reads env p inp [] 1 := by
    intro v4 msg h3
    refine ⟨Parser.emitAll [msg] p, ?_, emitted⟩
    rw [parse_looksUpMask h ht hcut h3 (p2 := Parser.emitAll [msg] p) (l2 := []) rfl]
    split <;> rfl
  by_cases ha : ∃ u q, Asks p e u q
  · obtain ⟨u, q, ha⟩ := ha
    have hr : ¬ (p.config.flags .requiredPort = false ∨ q ≠ []) := fun hr => hno ⟨u, q, ha, hr⟩
    have hq : q = [] := Classical.byContradiction fun hq => hr (.inr hq)
    subst hq
    obtain ⟨hu, v6, h1⟩ := masked_entry (env := env) h ht hcut hn ha
    obtain ⟨msg, h2⟩ := Parser.parseAddressPort_required (env := env) (p := p)
      (by cases hp : p.config.flags .requiredPort with
        | true => rfl
        | false => exact absurd (.inl hp) hr) u v6
    refine fin (msg := msg) (v4 := Parser.asIpv4 p.config e) ?_
    rw [h1, PM.bind_def, h2]
    rfl
  · obtain ⟨v4, msg, h1⟩ := Parser.no_question_refuses (env := env) ha
    have hh : e ≠ [] ∧ (2 ≤ e.count ':' ∨ e.head? ≠ some ':') := by
      refine ⟨fun h' => hn (.inl h'), ?_⟩
      by_cases h' : e.head? = some ':'
      · exact .inl (Nat.le_of_not_lt fun h'' => hn (.inr (.inl ⟨h', h''⟩)))
      · exact .inr h'
    exact fin (by rw [Parser.parseAddress_mask env e m [] p hh]; exact h1)

theorem tooShort_none {p : Parser} {e : Str} {n : Nat} {l : List AddrInfo} :
    badAnswers l + (tooShort p e n l).length = 0 ↔ ∀ x ∈ l, usable x = true ∧ n ≤ answerBits p e x := by
  rw [Nat.add_eq_zero_iff, bad_usable, List.length_eq_zero_iff, tooShort, List.filter_eq_nil_iff]
  constructor
  · rintro ⟨h1, h2⟩ x hx
    refine ⟨h1 x hx, ?_⟩
    have := h2 x (List.mem_filter.2 ⟨hx, h1 x hx⟩)
    simpa using this
  · intro h
    refine ⟨fun x hx => (h x hx).1, fun x hx => ?_⟩
    have := (h x (List.mem_filter.1 hx).1).2
    simpa using this

/-- The errors of a known host with a mask. -/
theorem known_mask {env : ParseEnv} {p : Parser} {inp t e m u q : Str} {l : List AddrInfo} (h : LooksUpMask p inp) (ht : Trims inp t)
    (h4 : p.config.defaultMask4 = []) (h6 : p.config.defaultMask6 = []) (ham : p.config.flags .addressMask = false) (hnul : '\x00' ∉ inp)
    (hcut : CutMask t e m) (hn : ¬ LeftOut e) (ha : Asks p e u q)
    (hq : p.config.flags .requiredPort = false ∨ q ≠ []) (hl : answerTo env p u q = .list l) (hs : ∀ x ∈ l, SafeAnswer x) :
    ∃ rs n, Reads env p inp rs n ∧ (n = 0 ↔ ∀ x ∈ l, usable x = true ∧ FitsMask (PortsAllowed p) e m x) := by
  by_cases hm0 : m = []
  · subst hm0
    obtain ⟨rs, h1⟩ := noMask_reads h ht h4 h6 hcut hn ha hq hl hs
    refine ⟨rs, _, h1, (bad_usable l).trans ?_⟩
    exact ⟨fun h x hx => ⟨h x hx, .inl rfl⟩, fun h x hx => (h x hx).1⟩
  · by_cases hm : ∀ c ∈ m, c.isDigit = true
    · obtain ⟨rs, n, h1, h2, _⟩ := C131_networks env p inp t e m u q l h ht hcut hn ha hq hm0 hm hl hs
      refine ⟨rs, n, h1, ?_⟩
      rw [h2, tooShort_none]
      refine forall_congr' fun x => forall_congr' fun _ => and_congr_right fun _ => ?_
      have hw : WrittenAsIpv4 p e ↔ PlainText (PortsAllowed p) e := by
        unfold WrittenAsIpv4 PlainText PortsAllowed
        rw [or_assoc]
      unfold FitsMask answerBits
      rw [← hw]
      constructor
      · intro hle
        refine .inr ⟨hm, ?_, fun h1 h2 => ?_⟩
        · split at hle <;> omega
        · rwa [if_pos ⟨h1, h2⟩] at hle
      · rintro (h' | ⟨_, h1, h2⟩)
        · exact absurd h' hm0
        · split
          · rename_i h3
            exact h2 h3.1 h3.2
          · exact h1
    · have hm' : ∃ c ∈ m, c.isDigit = false := by
        refine Classical.byContradiction fun h' => hm fun c hc => ?_
        cases hd : c.isDigit with
        | true => rfl
        | false => exact absurd ⟨c, hc, hd⟩ h'
      refine ⟨[], _, C131_not_number env p inp t e m u q l h ht hcut hn ha hq ham
        (fun h' => hnul (trims_mem ht _ ((cutMask_mem hcut).2 _ h'))) hm' hl hs, ?_⟩
      rw [Nat.add_eq_zero_iff, bad_usable, List.length_eq_zero_iff, List.filter_eq_nil_iff]
      constructor
      · rintro ⟨h1, h2⟩ x hx
        exact absurd (h1 x hx) (h2 x hx)
      · intro h
        refine ⟨fun x hx => (h x hx).1, fun x hx => ?_⟩
        rcases (h x hx).2 with h' | ⟨h', _⟩
        · exact absurd h' hm0
        · exact absurd h' hm

/-- One item. -/
theorem created_networkName {env : Validator.Env} {data : List Str} {v : Parser} {n : Nat} (h : Validator.create env data = .ok (v, n))
    (ho : HostNetworks env.split data) (calls : List (ParseEnv × Str)) (penv : ParseEnv) (hs : SafeAnswers penv) {value inp : Str}
    (h1 : OneEntry v inp) (hparse : Parser.parse penv value v = Parser.parse penv inp v) (htrim : ∀ t, Trims value t ↔ Trims inp t)
    (hnul : '\x00' ∉ inp) (hn : ∀ t e m, Trims value t → CutMask t e m → ¬ LeftOut e) :
    (∃ m, (Validator.validate penv value (Validator.validateAll calls v)).2 = .ok (true, m)) ↔ ValidNetworkName penv env.split data value := by
  obtain ⟨_, _, hd4, hd6, _⟩ := created_flags h ho.noDefault
  have hlk : LooksUpMask v inp := ⟨(C69_allowed_iff env data v n h _).2 ho.lookup, (C69_allowed_iff env data v n h _).2 ho.mask,
    .inl (created_off h ho.range), h1, created_unsorted h⟩
  have h0 : v.getErrorCount = 0 := (created_rest h).2.2.2
  have hport : ∀ q : Str, (allowedByOptions env.split data .requiredPort → q ≠ []) ↔ (v.config.flags .requiredPort = false ∨ q ≠ []) := by
    intro q
    rw [← C69_allowed_iff env data v n h .requiredPort]
    cases v.config.flags .requiredPort <;> simp
  have hsafe : ∀ {u q l}, hostAnswer penv u q = .list l → ∀ x ∈ l, SafeAnswer x := fun hl => hs _ _ _ _ (.inl rfl) hl
  obtain ⟨t, ht⟩ : ∃ t, Trims value t := ⟨_, trims_trim value⟩
  have hone : ∀ t', Trims value t' → t' = t := fun t' ht' => (trims_eq ht').symm.trans (trims_eq ht)
  obtain ⟨e, m, hcut⟩ : ∃ e m, CutMask t e m := by
    by_cases hsl : '/' ∈ t
    · obtain ⟨a, b, rfl, hb⟩ := List.eq_append_cons_of_mem hsl
      exact ⟨a, b, hb, .inr rfl⟩
    · exact ⟨t, [], hsl, .inl ⟨rfl, rfl⟩⟩
  have hone' : ∀ e' m', CutMask t e' m' → e' = e ∧ m' = m := fun e' m' h' => by
    have := (cutMask_split h').symm.trans (cutMask_split hcut)
    exact ⟨congrArg Prod.fst this, congrArg Prod.snd this⟩
  have ht' := (htrim t).1 ht
  have hne := hn t e m ht hcut
  have hpe : PortsAllowed v = PortsByOptions env.split data := created_ports h
  have known : ∀ {u q l}, Asks v e u q → (v.config.flags .requiredPort = false ∨ q ≠ []) → hostAnswer penv u q = .list l →
      (∃ l, (Parser.parse penv inp v).2 = .ok l) ∧ ((Parser.parse penv inp v).1.getErrorCount = 0
        ↔ ∀ x ∈ l, usable x = true ∧ FitsMask (PortsByOptions env.split data) e m x) := by
    intro u q l ha hq hl
    obtain ⟨rs, k, ⟨p', g1, _, g2, _⟩, g3⟩ := known_mask hlk ht' hd4 hd6 (created_off h ho.number) hnul hcut hne ha hq
      ((named_answer h ho.noDefault penv u q).trans hl) (hsafe hl)
    rw [g1, ← hpe, ← g3]
    refine ⟨⟨rs, rfl⟩, ?_⟩
    rw [g2, h0]
    omega
  rw [valid_count h, hparse]
  by_cases hno : ∃ u q, Asks v e u q ∧ (v.config.flags .requiredPort = false ∨ q ≠ [])
  · obtain ⟨u, q, ha, hq⟩ := hno
    constructor
    · rintro ⟨_, hc⟩
      cases hl : hostAnswer penv u q with
      | list l => exact ⟨t, e, m, u, q, l, ht, hcut, (named_asks h ho.noDefault).1 ha, (hport q).2 hq, hl, (known ha hq hl).2.1 hc⟩
      | error r c =>
        obtain ⟨p', g1, _, g2, _⟩ := C131_unknown penv v inp t e m u q r c hlk ht' hcut hne ha hq
          ((named_answer h ho.noDefault penv u q).trans hl)
        rw [g1, g2, h0] at hc
        cases hc
    · rintro ⟨t', e', m', u', q', l, g1, g2, g3, g4, g5, g6⟩
      obtain rfl := hone t' g1
      obtain ⟨rfl, rfl⟩ := hone' e' m' g2
      have := known ((named_asks h ho.noDefault).2 g3) ((hport q').1 g4) g5
      exact ⟨this.1, this.2.2 g6⟩
  · constructor
    · rintro ⟨_, hc⟩
      obtain ⟨p', g1, _, g2, _⟩ := masked_refused (env := penv) hlk ht' hcut hne hno
      rw [g1, g2, h0] at hc
      cases hc
    · rintro ⟨t', e', m', u, q, l, g1, g2, ha, hq, _⟩
      obtain rfl := hone t' g1
      obtain ⟨rfl, rfl⟩ := hone' e' m' g2
      exact absurd ⟨u, q, (named_asks h ho.noDefault).2 ha, (hport q).1 hq⟩ hno

/-! ### C149 -/

/-- C149: a validator of one address with lookups and masks accepts the names which the system knows, with a mask which fits all the
addresses of the host; whatever was validated before. The address is not left out. -/
theorem C149_valid_iff (env : Validator.Env) (data : List Str) (v : Parser) (n : Nat) (h : Validator.create env data = .ok (v, n))
    (ho : HostNetworks env.split data) (hs : ∀ c, ¬ SeparatesByOptions env.split data c) (calls : List (ParseEnv × Str)) (penv : ParseEnv)
    (ha : SafeAnswers penv) (value : Str) (hnul : '\x00' ∉ value) (hn : ∀ t e m, Trims value t → CutMask t e m → ¬ LeftOut e) :
    (∃ m, (Validator.validate penv value (Validator.validateAll calls v)).2 = .ok (true, m)) ↔ ValidNetworkName penv env.split data value := by
  have hs' (c : Char) : separates v c = false := by
    have := hs c
    rw [← created_separates_iff h c, Bool.not_eq_true] at this
    exact this
  have hc : NoComments v := ⟨created_off h ho.hash, created_off h ho.semicolon⟩
  have hv : value ≠ [] := by
    rintro rfl
    exact hn [] [] [] (trims_trim []) ⟨by simp, .inl ⟨rfl, rfl⟩⟩ (.inl rfl)
  exact created_networkName h ho calls penv ha ⟨hv, fun x _ => hs' x, hc⟩ rfl (fun _ => Iff.rfl) hnul hn

/-- C149: a validator of lists accepts the values of which every item is such a name. -/
theorem C149_list_iff (env : Validator.Env) (data : List Str) (v : Parser) (n : Nat) (h : Validator.create env data = .ok (v, n))
    (ho : HostNetworks env.split data) (hs : ∃ c, SeparatesByOptions env.split data c) (calls : List (ParseEnv × Str)) (penv : ParseEnv)
    (ha : SafeAnswers penv) (value : Str) (hnul : '\x00' ∉ value)
    (hn : ∀ i t e m, ItemOf env.split data value i → Trims i t → CutMask t e m → ¬ LeftOut e) :
    (∃ m, (Validator.validate penv value (Validator.validateAll calls v)).2 = .ok (true, m))
      ↔ ∀ i, ItemOf env.split data value i → ValidNetworkName penv env.split data i := by
  rw [C91_validator env data v n h (hs.elim fun c hc => hc.imp And.left fun hc => hc.imp And.left And.left) ⟨ho.hash, ho.semicolon⟩]
  refine forall_congr' fun i => ?_
  rw [created_items h]
  refine forall_congr' fun hi => ?_
  have hin : i ∈ items v value := (created_items h value i).2 hi
  refine created_networkName h ho calls penv ha ⟨hi.1, fun c hc => ?_, created_off h ho.hash, created_off h ho.semicolon⟩ rfl (fun _ => Iff.rfl)
    (items_nul hnul hin) fun t e m => hn i t e m hi
  have := hi.2.1 c hc
  rw [← created_separates_iff h c, Bool.not_eq_true] at this
  exact this

/-- C149: the number of bits is limited by the smallest address of the host: with an IPv4 address among the answers, no more than 32. -/
theorem C149_limit (penv : ParseEnv) (split : Str → List Str) (data : List Str) (u m : Str) (l : List AddrInfo) (hu : BareHost u)
    (hm : m ≠ []) (ht : Trims (u ++ '/' :: m) (u ++ '/' :: m)) (hl : hostAnswer penv u [] = .list l)
    (h4 : ∃ x ∈ l, isV4 (answerNumber x)) (hv : ValidNetworkName penv split data (u ++ '/' :: m)) : Nat.ofDigitChars 10 m 0 ≤ 32 := by
  obtain ⟨t, e, m', u', q, l', g1, g2, g3, _, g5, g6⟩ := hv
  obtain rfl : t = u ++ '/' :: m := (trims_eq g1).symm.trans (trims_eq ht)
  have hsl : '/' ∉ u := fun h => (hu.2 _ h).2.2.2 rfl
  have hcut : CutMask (u ++ '/' :: m) u m := ⟨hsl, .inr rfl⟩
  have := (cutMask_split g2).symm.trans (cutMask_split hcut)
  obtain rfl : e = u := congrArg Prod.fst this
  obtain rfl : m' = m := congrArg Prod.snd this
  have hcol : ':' ∉ e := fun h => (hu.2 _ h).1 rfl
  have hb : '[' ∉ e := fun h => (hu.2 _ h).2.1 rfl
  have hhead : e.head? ≠ some '[' := fun h => hb (List.mem_of_head? h)
  have hname : u' = e ∧ q = [] := by
    clear g1 g2 hcut this ht
    generalize hee : e = e' at g3
    cases g3 with
    | name => exact ⟨rfl, rfl⟩
    | port => exact absurd (by rw [hee]; simp) hcol
    | six h => subst hee; rw [List.count_eq_zero.2 hcol] at h; omega
    | bracket => rw [hee] at hhead; exact absurd rfl hhead
    | bracketPort => rw [hee] at hhead; exact absurd rfl hhead
    | nothing _ h _ | brackets _ h _ =>
      subst hee
      rcases entry_inv h with ⟨h, _⟩ | h | ⟨h, _⟩ | h
      · exact absurd h hu.1
      · exact absurd (by rw [h]; simp) hcol
      · exact absurd (by rw [h]; rfl) hhead
      · exact absurd (by rw [h]; rfl) hhead
  obtain ⟨rfl, rfl⟩ := hname
  rw [hl] at g5
  cases g5
  obtain ⟨x, hx, hx4⟩ := h4
  rcases (g6 x hx).2 with h | ⟨_, _, h⟩
  · exact absurd h hm
  · exact h ⟨by rw [List.count_eq_zero.2 hcol]; decide, hhead, fun h => (hu.2 _ h).2.2.1 rfl, .inr (.inl hcol)⟩ hx4

/-! ### Names with masks -/

def networkNameOptions : List Str := ["mask=yes".toList]

theorem networkNameOptions_count : sampleCount networkNameOptions = some 0 := by decide +kernel

theorem networkNameOptions_hosts : HostNetworks validatorEnv.split networkNameOptions := by
  have on := fun f hf => sample_on networkNameOptions_count f hf
  have off := fun f hf => sample_off networkNameOptions_count f hf
  exact ⟨on _ (by decide +kernel), on _ (by decide +kernel), off _ (by decide +kernel), off _ (by decide +kernel), off _ (by decide +kernel),
    off _ (by decide +kernel), by decide⟩

theorem networkNameOptions_one (c : Char) : ¬ SeparatesByOptions validatorEnv.split networkNameOptions c := by
  have off := fun f hf => sample_off networkNameOptions_count f hf
  rintro (⟨h, _⟩ | ⟨h, _⟩ | ⟨h, _⟩)
  · exact off _ (by decide +kernel) h
  · exact off _ (by decide +kernel) h
  · exact off _ (by decide +kernel) h

-- C149_valid_iff and C149_limit: the network of a host, and a mask which is too large.
example : (∃ m, (Validator.validate hostsEnv "gate/24".toList (sampleValidator networkNameOptions)).2 = .ok (true, m))
    ∧ ¬ ∃ m, (Validator.validate hostsEnv "gate/33".toList (sampleValidator networkNameOptions)).2 = .ok (true, m) := by
  have hs := sampleValidator_created networkNameOptions_count
  have hu : BareHost "gate".toList := ⟨by decide, by decide⟩
  have left : ∀ m : Str, Trims ("gate".toList ++ '/' :: m) ("gate".toList ++ '/' :: m) →
      ∀ t e m', Trims ("gate".toList ++ '/' :: m) t → CutMask t e m' → ¬ LeftOut e := by
    intro m h0 t e m' h1 h2
    obtain rfl : t = "gate".toList ++ '/' :: m := (trims_eq h1).symm.trans (trims_eq h0)
    have := (cutMask_split h2).symm.trans (cutMask_split ⟨by decide, .inr rfl⟩)
    obtain rfl : e = "gate".toList := congrArg Prod.fst this
    unfold LeftOut
    decide
  have h1 : Trims "gate/24".toList "gate/24".toList := trims_self (by decide) (by decide)
  have h2 : Trims "gate/33".toList "gate/33".toList := trims_self (by decide) (by decide)
  refine ⟨(C149_valid_iff validatorEnv networkNameOptions _ _ hs networkNameOptions_hosts networkNameOptions_one [] hostsEnv
    (glibc_safe hostsEnv_glibc) _ (by decide) (left "24".toList h1)).2
    ⟨_, "gate".toList, "24".toList, "gate".toList, [], _, h1, ⟨by decide, .inr rfl⟩, .name (by decide) (by decide) (by decide),
      fun h => absurd h (sample_off networkNameOptions_count _ (by decide +kernel)), rfl, ?_⟩, ?_⟩
  · intro x hx
    have : ∀ y ∈ spread 0 [AddrInfo.inet sizeofIn 0 { family := AF_INET, port := 0x5000, addr := #v[10, 0, 0, 1], zero := Vector.replicate 8 0 }],
      usable y = true := by decide
    exact ⟨this x hx, .inr ⟨by decide, by decide, fun _ _ => by decide⟩⟩
  · intro hv
    have hv := (C149_valid_iff validatorEnv networkNameOptions _ _ hs networkNameOptions_hosts networkNameOptions_one [] hostsEnv
      (glibc_safe hostsEnv_glibc) "gate/33".toList (by decide) (left "33".toList h2)).1 hv
    exact absurd (C149_limit hostsEnv _ _ "gate".toList "33".toList _ hu (by decide) h2 rfl ⟨_, List.mem_cons_self, by decide +kernel⟩ hv) (by decide)

end Verif
