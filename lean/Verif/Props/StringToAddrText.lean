import Verif.Props.StringToAddr
import Verif.Props.ValidatorLanguage

/-!
# Property C118: the texts which `string_to_addr()` converts without a name service, and those of the validator
-/

namespace Verif

open Spec Inet

/-- The text of a port which is a decimal number or not there, and the port which results with a default port (-1 for none). -/
def DecimalPort (q : Str) (default : Int) (k : Nat) : Prop :=
  (q = dec k ∧ k ≤ 65535) ∨ (q = [] ∧ k = if default = -1 then 0 else default.toNat)

/-- The address which is expected of a conversion. -/
structure ConvertedTo (env : ParseEnv) (u q proto : Str) (n k : Nat) (r : Addr) : Prop where
  address : ip r.getIpv6.addr = n
  port : r.getPort = k
  portDefined : r.portDefined = decide (q ≠ [])
  protocol : r.protocol = if proto = [] then 6 else (env.getprotobyname (cstr proto)).getD 0
  mask : ip r.getMask = 2 ^ 128 - 1
  hostname : r.hostname = u

/-! ### The vocabulary above in terms of the model -/

theorem entry_weaken {a b : Prop} (hab : a → b) {t u q : Str} (h : Entry a t u q) : Entry b t u q := by
  cases h with
  | bare4 h => exact .bare4 h
  | port4 h hq hp => exact .port4 h hq (hab hp)
  | bare6 h => exact .bare6 h
  | bracket => exact .bracket
  | port6 hp => exact .port6 (hab hp)

section
variable {env : ParseEnv} {p : Parser}

/-- An entry without a mask is read as its address. -/
theorem parse_address {inp t : Str} (h1 : OneEntry p inp) (hs : Unsorted p) (hm : NoDefaultMask p) (ht : Trims inp t) (hslash : '/' ∉ t)
    {v4 : Bool} {l : List Range} (hp : Parser.parseAddress env t [] [] p = (p, .ok (v4, l))) : Parser.parse env inp p = (p, .ok l) := by
  rw [parse_one_unsorted env inp p h1 hs]
  cases hmf : p.config.flags .mask with
  | false => rw [Parser.parseCidr_nomask env inp [] p hmf, trims_eq ht, hp]
  | true =>
    rw [Parser.parseCidr_mask env inp [] p hmf, trims_eq ht, Parser.splitFirst_none.2 hslash]
    simp only [Option.getD_none, hp]
    have hno : ∀ v4, Parser.chooseMask p.config [] v4 = [] := by
      rcases hm with hm | ⟨hm4, hm6⟩
      · rw [hmf] at hm; cases hm
      · intro v4
        rw [Parser.chooseMask, if_neg (not_not_intro rfl), hm4, hm6]
        cases v4 <;> rfl
    have e1 : Parser.maskLoop env [] v4 l p = (p, .ok l) := by
      clear hp
      induction l with
      | nil => rfl
      | cons r l ih =>
        rw [Parser.maskLoop, PM.config_bind, hno]
        have : (Parser.parseMask env [] r.lo (v4 && r.lo.isIpv4)) p = (p, .ok r.lo) := rfl
        rw [PM.bind_of_ok this, PM.bind_of_ok ih]
        rfl
    simp [e1]

end

section
variable {env : ParseEnv} {d : Str} {port : Int} {proto : Str} {mask : Bool}

/-- The conversion of a text of which the address and the port are known. -/
theorem converts (henv : NumericService env) (hacc : Acceptable env d port proto)
    (hp : proto ≠ [] → env.getprotobyname (cstr proto) = some 6 ∨ env.getprotobyname (cstr proto) = some 17)
    {value t u q : Str} {n k : Nat} (ht : Trims value t) (hne : value ≠ []) (hslash : '/' ∉ t) (ha : AddressOf u n) (hk : DecimalPort q port k)
    (hread : ∃ v4 v6, Parser.parseAddress env t [] [] (ownParser env d port proto mask)
      = (Parser.parseAddressPort env u q [] v6 >>= fun l => (Pure.pure (v4, l) : PM (Bool × List Range))) (ownParser env d port proto mask)) :
    ∃ r, Parser.stringToAddr env value d port proto mask = .ok r ∧ ConvertedTo env u q proto n k r := by
  obtain ⟨b, rfl, hu⟩ := Parser.address_readable ha
  rcases stringToAddr_cases (env := env) (d := d) (port := port) (proto := proto) (mask := mask) value with ⟨h1, _⟩ | ⟨_, h2, h3⟩
  · exact absurd hacc h1
  obtain ⟨v4, v6, hread⟩ := hread
  generalize ownParser env d port proto mask = p at h2 h3 hread
  have hf : ∀ f, p.config.flags f = if f = .mask then mask else decide (f = .address ∨ f = .addressLookup ∨ f = .port) :=
    fun f => by rw [h3.flags]
  have hone : OneEntry p value := ⟨hne, fun x _ => by simp [separates, hf], ⟨by simp [hf], by simp [hf]⟩⟩
  have hport : Parser.parseAddressPort env u q [] v6 p
      = Parser.lookupAddress env u (if (!decide (q ≠ []) && decide (port ≠ -1)) = true then intStr port else q) (decide (q ≠ [])) [] p := by
    rw [Parser.parseAddressPort, PM.config_bind]
    dsimp only
    rw [if_neg (by simp [hf]), if_neg (by simp [hf]), if_neg hu.nonempty, if_pos (by simp [hf]), h3.port]
  have hbound : k ≤ 65535 := by
    rcases hk with ⟨_, h⟩ | ⟨_, rfl⟩
    · exact h
    · split
      · omega
      · have := hacc.port
        omega
  have hserv : (if (if (!decide (q ≠ []) && decide (port ≠ -1)) = true then intStr port else q) = [] then ['0']
      else cstr (if (!decide (q ≠ []) && decide (port ≠ -1)) = true then intStr port else q)) = dec k := by
    rcases hk with ⟨rfl, _⟩ | ⟨rfl, hk⟩
    · have e : (!decide (dec k ≠ []) && decide (port ≠ -1)) = false := by simp [dec_ne_nil]
      rw [e, if_neg Bool.false_ne_true, if_neg (dec_ne_nil _), cstr_dec]
    · by_cases h1 : port = -1
      · rw [if_pos h1] at hk
        rw [hk]
        simp only [h1]
        decide
      · rw [if_neg h1] at hk
        have := hacc.port
        have e : (!decide (([] : Str) ≠ []) && decide (port ≠ -1)) = true := by simp [h1]
        rw [e, if_pos rfl, intStr_nonneg (by omega), decStr_dec, if_neg (dec_ne_nil _), cstr_dec, hk]
  obtain ⟨l, h4, h5⟩ := lookup_numeric (p := p) henv hu hbound (decide (q ≠ [])) hserv
  have hl : Parser.parse env value p = (p, .ok l) :=
    parse_address hone (by rw [Unsorted, h3.sort]; rfl) (.inr ⟨h3.mask4, h3.mask6⟩) ht hslash (v4 := v4)
      (by rw [hread, PM.bind_of_ok (hport.trans h4)]; rfl)
  have hall : ∀ r ∈ l, r.hasFrom = true ∧ r.hasTo = false := fun r hr => by
    obtain ⟨_, _, h⟩ := each_mem h5 hr
    exact ⟨h.hasFrom, h.hasTo⟩
  have hpick : ∃ r j, Looked u b k (decide (q ≠ [])) j r ∧ Picks proto l r.lo
      ∧ j = (if proto = [] then 6 else (env.getprotobyname (cstr proto)).getD 0) := by
    rw [h3.protocol, protocolNumber] at h5
    by_cases h0 : proto = []
    · rw [if_pos h0] at h5
      have e0 : Parser.hintProtocol (-1) = 0 := by decide
      rw [e0, if_pos rfl] at h5
      cases h5 with
      | @cons _ r1 _ _ g1 h5 =>
        cases h5 with
        | @cons _ r2 _ _ g2 h5 =>
          cases h5 with
          | @cons _ r3 _ _ g3 h5 =>
            cases h5
            refine ⟨r1, 6, g1, (.inr ⟨h0, (fun h => nomatch h), [], r1, [r2, r3], rfl, rfl, g1.protocol, ?_⟩), by rw [if_pos h0]⟩
            intro s hs
            rw [List.nil_append] at hs
            rcases List.mem_cons.1 hs with rfl | hs
            · rw [g2.protocol]; decide
            · rw [List.mem_singleton.1 hs, g3.protocol]; decide
    · rw [if_neg h0] at h5
      have hk : ∃ k : Int, env.getprotobyname (cstr proto) = some k ∧ (k = 6 ∨ k = 17) := by
        rcases hp h0 with h | h
        · exact ⟨6, h, .inl rfl⟩
        · exact ⟨17, h, .inr rfl⟩
      obtain ⟨k, hk, hk6⟩ := hk
      have e0 : Parser.hintProtocol ((some k).getD (-1)) = k := by
        rcases hk6 with rfl | rfl <;> rfl
      rw [hk, e0, if_neg (by omega)] at h5
      cases h5 with
      | @cons _ r1 _ _ g1 h5 =>
        cases h5
        exact ⟨r1, k, g1, .inl ⟨r1, rfl, rfl⟩, by rw [if_neg h0, hk]; rfl⟩
  obtain ⟨r, j, g, hr, hj⟩ := hpick
  refine ⟨r.lo, ?_, ⟨?_, ?_, g.portDefined, by rw [g.protocol, hj], ?_, g.hostname⟩⟩
  · rw [h2, PM.bind_of_ok hl]
    rcases pickOne_cases (proto := proto) hall p with ⟨x, h6, h7⟩ | ⟨_, h7⟩
    · rw [h6, (h7 _).1 hr]
    · exact absurd hr (h7 _)
  · rw [g.address]
  · have : r.lo.getPort = (swap16 r.lo.getIpv6.port).toNat := rfl
    rw [this, g.address]
    dsimp only
    rw [swap16_swap16, BitVec.toNat_ofNat]
    omega
  · show ip r.lo.mask = _
    rw [g.mask]
    decide

theorem decimal_chars {q : Str} {port : Int} {k : Nat} (h : DecimalPort q port k) : ∀ c ∈ q, c ∈ Parser.digitChars := by
  rcases h with ⟨rfl, _⟩ | ⟨rfl, _⟩
  · exact dec_digits k
  · exact fun _ h => nomatch h

theorem entry_noSlash {ports : Prop} {t u q : Str} (h : Entry ports t u q) (hu : '/' ∉ u) (hq : '/' ∉ q) : '/' ∉ t := by
  cases h <;> simp_all

/-- The empty text is read as a blank. -/
theorem stringToAddr_blank : Parser.stringToAddr env [] d port proto mask = Parser.stringToAddr env [' '] d port proto mask := by
  rcases stringToAddr_cases (env := env) (d := d) (port := port) (proto := proto) (mask := mask) [] with ⟨h1, h2⟩ | ⟨h1, h2, h3⟩
  · rcases stringToAddr_cases (env := env) (d := d) (port := port) (proto := proto) (mask := mask) [' '] with ⟨_, h4⟩ | ⟨h4, _⟩
    · rw [h2, h4]
    · exact absurd h4 h1
  · rcases stringToAddr_cases (env := env) (d := d) (port := port) (proto := proto) (mask := mask) [' '] with ⟨h4, _⟩ | ⟨_, h4, _⟩
    · exact absurd h1 h4
    · have hf : ∀ f, (ownParser env d port proto mask).config.flags f
          = if f = .mask then mask else decide (f = .address ∨ f = .addressLookup ∨ f = .port) := fun f => by rw [h3.flags]
      rw [h2, h4, PM.bind_def, PM.bind_def, C81_empty_blank env _ (fun x => by simp [separates, hf]) ⟨by simp [hf], by simp [hf]⟩]

end

/-! ### C118 -/

/-- C118: any text of an address, with or without a decimal port and with blanks around it, is converted to this address and port. -/
theorem C118_text (env : ParseEnv) (henv : NumericService env) (d : Str) (port : Int) (proto : Str) (mask : Bool)
    (hacc : Acceptable env d port proto)
    (hp : proto ≠ [] → env.getprotobyname (cstr proto) = some 6 ∨ env.getprotobyname (cstr proto) = some 17)
    (value t u q : Str) (n k : Nat) (ht : Trims value t) (he : Entry True t u q) (ha : AddressOf u n) (hk : DecimalPort q port k) :
    ∃ r, Parser.stringToAddr env value d port proto mask = .ok r ∧ ConvertedTo env u q proto n k r := by
  have hu : u ≠ [] := Parser.address_ne ha
  have hslash : '/' ∉ t := entry_noSlash he (fun h => absurd (Parser.address_chars ha _ h) (by decide))
    (fun h => absurd (decimal_chars hk _ h) (by decide))
  have htne : t ≠ [] := by
    rintro rfl
    rcases entry_inv he with ⟨h, _⟩ | h | ⟨h, _⟩ | h
    · exact hu h.symm
    · simp at h
    · simp at h
    · simp at h
  have hne : value ≠ [] := by
    rintro rfl
    obtain ⟨c, s, rfl⟩ := List.exists_cons_of_ne_nil htne
    exact nomatch trims_mem ht c List.mem_cons_self
  refine converts henv hacc hp ht hne hslash ha hk ?_
  rcases stringToAddr_cases (env := env) (d := d) (port := port) (proto := proto) (mask := mask) value with ⟨h1, _⟩ | ⟨_, _, h3⟩
  · exact absurd hacc h1
  refine Parser.entry_reads (entry_weaken (fun _ => .inl ?_) he) ha
  rw [h3.flags]
  rfl

/-- C118: a text without address, a decimal port alone or nothing, is converted to the default address if this is written as a number. -/
theorem C118_default (env : ParseEnv) (henv : NumericService env) (d : Str) (port : Int) (proto : Str) (mask : Bool)
    (hacc : Acceptable env d port proto)
    (hp : proto ≠ [] → env.getprotobyname (cstr proto) = some 6 ∨ env.getprotobyname (cstr proto) = some 17)
    (value t q : Str) (n k : Nat) (ht : Trims value t) (he : Entry True t [] q) (hb : t.head? ≠ some '[') (ha : AddressOf (unbracketed d) n)
    (hk : DecimalPort q port k) :
    ∃ r, Parser.stringToAddr env value d port proto mask = .ok r ∧ ConvertedTo env (unbracketed d) q proto n k r := by
  have hslash : '/' ∉ t := entry_noSlash he (fun h => nomatch h) (fun h => absurd (decimal_chars hk _ h) (by decide))
  have hd := Parser.address_ne ha
  have hdef := own_default (mask := mask) hacc hd
  have hread : ∃ v4 v6, Parser.parseAddress env t [] [] (ownParser env d port proto mask)
      = (Parser.parseAddressPort env (unbracketed d) q [] v6 >>= fun l => (Pure.pure (v4, l) : PM (Bool × List Range)))
        (ownParser env d port proto mask) := by
    rcases stringToAddr_cases (env := env) (d := d) (port := port) (proto := proto) (mask := mask) value with ⟨h1, _⟩ | ⟨_, _, h3⟩
    · exact absurd hacc h1
    have hdt : defaultText (ownParser env d port proto mask).config t = unbracketed d := by
      rw [defaultText, if_neg hb]
      rcases hdef with h4 | ⟨h4, h6⟩
      · rw [h4, if_pos hd]
      · rw [h4, h6, if_neg (not_not_intro rfl), if_pos hd]
    rw [← hdt]
    refine Parser.leftOut_reads ?_ (.inl (entry_weaken (fun _ => .inl ?_) he)) <;> rw [h3.flags] <;> rfl
  by_cases hne : value = []
  · subst hne
    rw [stringToAddr_blank]
    exact converts henv hacc hp (trims_blank ht) (by decide) hslash ha hk hread
  · exact converts henv hacc hp ht hne hslash ha hk hread

/-- C118: a value in which the address is not left out, which a validator of one address accepts and the port of which is decimal, is
converted to the address and the port which it writes, whatever the defaults. -/
theorem C118_validated (venv : Validator.Env) (data : List Str) (v : Parser) (c : Nat) (h : Validator.create venv data = .ok (v, c))
    (ho : OneNumber venv.split data) (hm : ¬ allowedByOptions venv.split data .mask) (calls : List (ParseEnv × Str)) (penv : ParseEnv)
    (value t : Str) (ht : Trims value t) (hnul : '\x00' ∉ t)
    (hv : ∃ m, (Validator.validate penv value (Validator.validateAll calls v)).2 = .ok (true, m))
    (hdec : ∀ u q, Entry (PortsByOptions venv.split data) t u q → q = [] ∨ ∃ k ≤ 65535, q = dec k) (hl : ¬ LeftOut t)
    (env : ParseEnv) (henv : NumericService env) (d : Str) (port : Int) (proto : Str) (mask : Bool) (hacc : Acceptable env d port proto)
    (hp : proto ≠ [] → env.getprotobyname (cstr proto) = some 6 ∨ env.getprotobyname (cstr proto) = some 17) :
    ∃ r u q n k, Parser.stringToAddr env value d port proto mask = .ok r ∧ Entry (PortsByOptions venv.split data) t u q ∧ AddressOf u n
      ∧ ValidPort penv venv.split data q ∧ DecimalPort q port k ∧ ConvertedTo env u q proto n k r := by
  obtain ⟨u, q, he, ha, hq⟩ := (C89_valid_iff venv data v c h ho hm calls penv value t ht hnul).1 hv
  rcases ha with ⟨n, ha⟩ | ⟨rfl, _⟩
  · obtain ⟨k, hk⟩ : ∃ k, DecimalPort q port k := by
      rcases hdec u q he with hq | ⟨k, h1, h2⟩
      · exact ⟨_, .inr ⟨hq, rfl⟩⟩
      · exact ⟨k, .inl ⟨h2, h1⟩⟩
    obtain ⟨r, h1, h2⟩ := C118_text env henv d port proto mask hacc hp value t u q n k ht (entry_weaken (fun _ => trivial) he) ha hk
    exact ⟨r, u, q, n, k, h1, he, ha, hq, hk, h2⟩
  · exfalso
    refine hl ?_
    cases he with
    | bare4 _ => exact .inl rfl
    | port4 _ h2 _ => exact .inr (.inl ⟨rfl, by rw [List.nil_append, List.count_cons_self, List.count_eq_zero.2 h2]; omega⟩)
    | bare6 h => simp at h
    | bracket => exact .inr (.inr ⟨[], rfl⟩)
    | port6 _ => exact .inr (.inr ⟨':' :: q, rfl⟩)

/-! ### Examples -/

/-- " [::1]:80" and ":80" with the default address 10.0.0.1. -/
example : (∃ r, Parser.stringToAddr serviceEnv " [::1]:80".toList [] (-1) "udp".toList false = .ok r
      ∧ ConvertedTo serviceEnv "::1".toList "80".toList "udp".toList 1 80 r)
    ∧ ∃ r, Parser.stringToAddr serviceEnv ":80".toList "10.0.0.1".toList 443 [] true = .ok r
      ∧ ConvertedTo serviceEnv "10.0.0.1".toList "80".toList [] 0xFFFF0A000001 80 r :=
  ⟨C118_text serviceEnv serviceEnv_numeric [] (-1) "udp".toList false ⟨by decide, by decide, fun _ => by decide⟩ (fun _ => .inr (by decide))
      " [::1]:80".toList "[::1]:80".toList "::1".toList "80".toList 1 80 ⟨[' '], [], rfl, by decide, by decide, by decide, by decide⟩
      (.port6 (u := "::1".toList) trivial)
      (.inr ⟨by decide, .zip (p := []) (ps := []) (z := 7) (q := "1".toList) (qs := [1]) (.inl ⟨rfl, rfl⟩)
        (.inr (.one ⟨HexNum.snoc (t := []) (v := 0) (c := '1') (d := 1) .nil (.inl (by decide)), by decide, by decide⟩)) (by decide) (by decide)⟩)
      (.inl ⟨by decide, by decide⟩),
    C118_default serviceEnv serviceEnv_numeric "10.0.0.1".toList 443 [] true ⟨by decide, by decide, fun h => absurd rfl h⟩ (fun h => absurd rfl h)
      ":80".toList ":80".toList "80".toList 0xFFFF0A000001 80 (trims_self (by decide) (by decide)) (.port4 (u := []) (by decide) (by decide) trivial)
      (by decide) (.inl ⟨0x0A000001, by decide, by decide, rfl⟩) (.inl ⟨by decide, by decide⟩)⟩

/-- "10.1.2.3" is valid for the options of the example of C89 with masks forbidden, and converted. -/
example (h : Validator.create validatorEnv ["address=yes".toList] = .ok (sampleValidator ["address=yes".toList], 0))
    (ho : OneNumber validatorEnv.split ["address=yes".toList]) (hm : ¬ allowedByOptions validatorEnv.split ["address=yes".toList] .mask)
    (hv : ∃ m, (Validator.validate sampleEnv "10.1.2.3".toList (sampleValidator ["address=yes".toList])).2 = .ok (true, m)) :
    ∃ r u q n k, Parser.stringToAddr serviceEnv "10.1.2.3".toList [] 80 [] false = .ok r
      ∧ Entry (PortsByOptions validatorEnv.split ["address=yes".toList]) "10.1.2.3".toList u q ∧ AddressOf u n
      ∧ ValidPort sampleEnv validatorEnv.split ["address=yes".toList] q ∧ DecimalPort q 80 k ∧ ConvertedTo serviceEnv u q [] n k r :=
  C118_validated validatorEnv _ _ 0 h ho hm [] sampleEnv "10.1.2.3".toList "10.1.2.3".toList (trims_self (by decide) (by decide)) (by decide) hv
    (fun u q he => by
      rcases entry_inv he with ⟨_, h1⟩ | h1 | ⟨_, h1⟩ | h1
      · exact .inl h1
      · exact absurd (show ':' ∈ "10.1.2.3".toList by rw [h1]; simp) (by decide)
      · exact .inl h1
      · exact absurd (show ':' ∈ "10.1.2.3".toList by rw [h1]; simp) (by decide))
    (by unfold LeftOut; decide) serviceEnv serviceEnv_numeric [] 80 [] false ⟨by decide, by decide, fun h => absurd rfl h⟩ (fun h => absurd rfl h)

/-- The hypotheses hold. -/
example : sampleCount ["address=yes".toList] = some 0 ∧ (∀ f, f ≠ .address → f ≠ .port → (sampleValidator ["address=yes".toList]).config.flags f = false)
    ∧ (match (Validator.validate sampleEnv "10.1.2.3".toList (sampleValidator ["address=yes".toList])).2 with
      | .ok (true, _) => true
      | _ => false) = true := by
  refine ⟨by decide +kernel, ?_, by decide +kernel⟩
  intro f
  cases f <;> decide +kernel

end Verif
