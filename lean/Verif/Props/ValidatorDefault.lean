import Verif.Props.Validator
import Verif.Props.ParserSource
import Verif.Props.AddrNet
import Verif.Lemmas.ToolWords

/-!
# Property C77: the option `default` of the address validator
-/

namespace Verif

open Spec Inet

/-! ### Lemmas -/

/-- The call ends normally and changes the configuration of this parser, as said. -/
def Changes {α : Type} (p : Parser) (m : PM α) (x : α) (P : Config → Prop) : Prop :=
  ∃ d, m p = ({ p with config := d }, .ok x) ∧ P d

theorem changes_bind {α β : Type} {p : Parser} {m : PM α} {x : α} {f : α → PM β} {y : β} {P Q : Config → Prop}
    (hm : Changes p m x P) (hf : ∀ d, P d → Changes { p with config := d } (f x) y Q) : Changes p (m >>= f) y Q := by
  obtain ⟨d, h1, h2⟩ := hm
  obtain ⟨e, h3, h4⟩ := hf d h2
  exact ⟨e, by rw [PM.bind_def, h1]; exact h3, h4⟩

theorem changes_pure {α : Type} (p : Parser) (x : α) {P : Config → Prop} (h : P p.config) : Changes p (Pure.pure x) x P :=
  ⟨p.config, rfl, h⟩

theorem set_address4 (p : Parser) (b : Bytes4) :
    Parser.setDefaultAddress (ntop4 b) p = ({ p with config := { p.config with defaultAddress4 := ntop4 b } }, .ok ()) := by
  have h1 : ∀ c ∈ ntop4 b, c ≠ '[' ∧ c ≠ ':' := by
    intro c hc
    have := ntop4_chars b c hc
    constructor <;> (rintro rfl; exact absurd this (by decide))
  have h2 := (ntop4_word b).1
  revert h1 h2
  generalize ntop4 b = s
  intro h1 h2
  have hn : ¬ s.contains ':' = true := by
    rw [List.contains_iff_mem]
    exact fun h => (h1 _ h).2 rfl
  unfold Parser.setDefaultAddress
  rw [PM.config_bind]
  split
  · exact absurd rfl h2
  · exact absurd rfl (h1 _ List.mem_cons_self).1
  · rw [if_neg hn]
    rfl

theorem set_address6 (p : Parser) (s : Str) :
    Parser.setDefaultAddress ('[' :: s ++ [']']) p = ({ p with config := { p.config with defaultAddress6 := s } }, .ok ()) := by
  unfold Parser.setDefaultAddress
  rw [PM.config_bind]
  show (if ('[' :: s ++ [']']).getLast? ≠ some ']' then _ else _ : PM Unit) p = _
  have e : (List.append s [']']).dropLast = s := List.dropLast_concat
  rw [if_neg (by rw [List.getLast?_append]; simp), e]
  rfl

theorem set_port {env : ParseEnv} (h : ReadsNumbers env) (p : Parser) (n : Nat) (hn : n ≤ 65535) :
    Parser.setDefaultPortStr env (decStr n) p = ({ p with config := { p.config with defaultPort := n } }, .ok ()) := by
  unfold Parser.setDefaultPortStr
  rw [if_neg (by rw [decStr_dec]; exact (dec_word n).1), decStr_dec, h n hn]
  dsimp only
  rw [toCInt_self _ (by unfold IsCInt; omega), Parser.setDefaultPort, if_neg (by omega)]
  rfl

theorem set_mask6 (env : ParseEnv) (p : Parser) (s : Str) :
    Parser.setDefaultMask env ('[' :: s ++ [']']) p = ({ p with config := { p.config with defaultMask6 := s } }, .ok ()) := by
  unfold Parser.setDefaultMask
  rw [PM.config_bind, if_neg (by simp)]
  dsimp only
  have h2 : (('[' :: s ++ [']']).getLast? == some ']') = true := by
    rw [List.getLast?_append]; rfl
  rw [h2, if_pos (by rfl)]
  show ({ p with config := { p.config with defaultMask6 := (s ++ [']']).dropLast } }, _) = _
  rw [List.dropLast_concat]

theorem set_mask {env : ParseEnv} (h : ReadsNumbers env) (p : Parser) (n : Nat) (hn : n ≤ 128) :
    Parser.setDefaultMask env (decStr n) p
      = ({ p with config := if n > 32 then { p.config with defaultMask6 := dec n } else { p.config with defaultMask4 := dec n } },
          .ok ()) := by
  unfold Parser.setDefaultMask
  rw [PM.config_bind, if_neg (by rw [decStr_dec]; exact (dec_word n).1)]
  dsimp only
  have h1 : ((decStr n).head? == some '[') = false := by
    rw [beq_eq_false_iff_ne]
    exact fun h => absurd (decStr_chars n _ (List.mem_of_mem_head? h)) (by decide)
  have h2 : ((decStr n).getLast? == some ']') = false := by
    rw [beq_eq_false_iff_ne]
    exact fun h => absurd (decStr_chars n _ (List.mem_of_mem_getLast? h)) (by decide)
  have h3 : ¬ (decStr n).contains ':' = true := by
    rw [List.contains_iff_mem]
    exact fun h => absurd (decStr_chars n _ h) (by decide)
  rw [h1, h2, if_neg (by decide), if_neg (by decide), if_neg h3, decStr_dec, h n (by omega)]
  dsimp only
  rw [if_neg (by omega)]
  by_cases hg : n > 32
  · rw [if_pos (by omega), if_pos hg]; rfl
  · rw [if_neg (by omega), if_neg hg]; rfl

/-- What the code does with the mask. -/
structure MaskStored (a : Addr) (c d : Config) : Prop where
  none : (∀ n < 128, ip a.getMask ≠ prefixMask n) → d.defaultMask4 = c.defaultMask4 ∧ d.defaultMask6 = c.defaultMask6
  v4 : isV4 (ip a.getIpv6.addr) → ∀ n, 32 < n → n < 128 → ip a.getMask = prefixMask n →
    d.defaultMask4 = c.defaultMask4 ∧ d.defaultMask6 = dec n
  v6 : ¬ isV4 (ip a.getIpv6.addr) → ∀ n < 128, ip a.getMask = prefixMask n →
    d.defaultMask4 = c.defaultMask4 ∧ d.defaultMask6 = dec n

theorem use_address (env : Validator.Env) (b : Addr) (p : Parser) {α : Type} {f : PM α} {x : α} {Q : Config → Prop}
    (hf : ∀ d : Config, d.flags = p.config.flags → d.sort = p.config.sort → d.protocol = p.config.protocol →
      d.defaultPort = p.config.defaultPort → d.defaultMask4 = p.config.defaultMask4 → d.defaultMask6 = p.config.defaultMask6 →
      (isV4 (ip b.bytes) → d.defaultAddress4 = dotted (ip b.bytes % 2 ^ 32) ∧ d.defaultAddress6 = p.config.defaultAddress6) →
      (¬ isV4 (ip b.bytes) → d.defaultAddress4 = p.config.defaultAddress4 ∧ Text6 (ip b.bytes) d.defaultAddress6) →
      Changes { p with config := d } f x Q) (hany : ¬ isAny (ip b.bytes)) :
    Changes p (PM.lift (b.toIpv4or6String env.db STRING_IP_BRACKET_ADDRESS) >>= fun t => Parser.setDefaultAddress t >>= fun _ => f) x Q := by
  by_cases hb : b.isIpv4 = true
  · rw [Validator.bracket_text4 _ _ hb, PM.lift_ok_bind]
    refine changes_bind (P := fun d => d = { p.config with defaultAddress4 := ntop4 (last4 b.bytes) }) ⟨_, set_address4 p _, rfl⟩ ?_
    rintro d rfl
    refine hf _ rfl rfl rfl rfl rfl rfl (fun _ => ⟨?_, rfl⟩) fun h => absurd ((isIpv4_iff b).1 hb) h
    show ntop4 (last4 b.bytes) = _
    rw [ntop4_dotted, ip4_last4]
  · obtain ⟨s, hs, ht⟩ := Validator.bracket_text6 env.db b (by simpa using hb)
    rw [hs, PM.lift_ok_bind]
    refine changes_bind (P := fun d => d = { p.config with defaultAddress6 := s }) ⟨_, set_address6 p _, rfl⟩ ?_
    rintro d rfl
    refine hf _ rfl rfl rfl rfl rfl rfl (fun h => absurd ((isIpv4_iff b).2 h) hb) fun _ => ⟨rfl, ?_⟩
    show Text6 _ s
    rw [ht fun h => hany ((isDefault_iff b).1 h)]
    exact ntop6_text _

theorem use_port {env : Validator.Env} (h : ReadsNumbers env.parse) (b : Addr) (p : Parser) :
    Changes p (if b.getPort ≠ 0 then Parser.setDefaultPortStr env.parse b.getStrPort else Pure.pure ()) ()
      (fun d => d = { p.config with defaultPort := if b.getPort ≠ 0 then (b.getPort : Int) else p.config.defaultPort }) := by
  by_cases hp : b.getPort ≠ 0
  · rw [if_pos hp, if_pos hp]
    exact ⟨_, set_port h p b.getPort (Nat.le_of_lt_succ (BitVec.isLt _)), rfl⟩
  · rw [if_neg hp, if_neg hp]
    exact ⟨p.config, rfl, rfl⟩

theorem use_mask {env : Validator.Env} (h : ReadsNumbers env.parse) (b : Addr) (p : Parser) :
    Changes p (if b.getMaskSize ≠ -1 ∧ b.getMaskSize ≠ 128 then
        if b.isIpv4 = true then Parser.setDefaultMask env.parse (intStr b.getMaskSize)
        else Parser.setDefaultMask env.parse ('[' :: intStr b.getMaskSize ++ [']']) else Pure.pure ()) ()
      (fun d => MaskStored b p.config d ∧ d = { p.config with defaultMask4 := d.defaultMask4, defaultMask6 := d.defaultMask6 }) := by
  obtain ⟨hm, h2, h3⟩ := C09_mask_size_other b
  have num : ∀ n ≤ 128, ip b.getMask = prefixMask n → b.getMaskSize = n := fun n hn he => (C09_mask_size_iff b n hn).2 he
  by_cases hs : b.getMaskSize ≠ -1 ∧ b.getMaskSize ≠ 128
  · rw [if_pos hs]
    have hi : intStr b.getMaskSize = decStr b.getMaskSize.natAbs := by rw [intStr, if_neg (by omega)]
    have hsome : ¬ ∀ n < 128, ip b.getMask ≠ prefixMask n := by
      intro hno
      have e : b.getMaskSize = (b.getMaskSize.natAbs : Nat) := by omega
      exact hno b.getMaskSize.natAbs (by omega) ((C09_mask_size_iff b _ (by omega)).1 e)
    by_cases hb : b.isIpv4 = true
    · rw [if_pos hb, hi]
      refine ⟨_, set_mask h p _ (by omega), ⟨fun h => absurd h hsome, fun _ n hn hn' he => ?_,
        fun h => absurd ((isIpv4_iff b).1 hb) h⟩, ?_⟩
      · have := num n (by omega) he
        rw [show b.getMaskSize.natAbs = n by omega, if_pos (by omega)]
        exact ⟨rfl, rfl⟩
      · split <;> rfl
    · rw [if_neg hb, hi]
      refine ⟨_, set_mask6 env.parse p _, ⟨fun h => absurd h hsome, fun h => absurd ((isIpv4_iff b).2 h) hb,
        fun _ n hn he => ?_⟩, rfl⟩
      have := num n (by omega) he
      rw [show b.getMaskSize.natAbs = n by omega, decStr_dec]
      exact ⟨rfl, rfl⟩
  · rw [if_neg hs]
    refine ⟨p.config, rfl, ⟨fun _ => ⟨rfl, rfl⟩, fun _ n _ hn he => ?_, fun _ n hn he => ?_⟩, rfl⟩
    · exfalso; have := num n (by omega) he; omega
    · exfalso; have := num n (by omega) he; omega

/-- What a value of the option does. -/
def Stored (a : Addr) (c d : Config) : Prop := DefaultsOf a c d ∧ MaskStored a c d

theorem use_defaults {env : Validator.Env} (h : ReadsNumbers env.parse) (a : Addr) (hu : a.privateNetwork = .undefined) (p : Parser) :
    Changes p (Validator.useDefaults env a) () (Stored a p.config) := by
  obtain ⟨h1, _, h2⟩ := C12_network_type a hu
  have hany : a.getNetworkType.2 ≠ .any ↔ ¬ isAny (ip a.getIpv6.addr) := by
    rw [h1, ← (C12_table_disjoint (ip a.getIpv6.addr)).2.2.2.2.2.1]
  have hbytes : a.getNetworkType.1.bytes = a.getIpv6.addr := by rw [h2]; rfl
  have hport : a.getNetworkType.1.getPort = a.getPort := by rw [h2]; rfl
  have hmask : ∀ c d, MaskStored a.getNetworkType.1 c d ↔ MaskStored a c d := by
    rw [h2]
    exact fun c d => ⟨fun h => ⟨h.none, h.v4, h.v6⟩, fun h => ⟨h.none, h.v4, h.v6⟩⟩
  have tail : ∀ (c d : Config) , d.flags = c.flags → d.sort = c.sort → d.protocol = c.protocol →
      d.defaultPort = c.defaultPort → d.defaultMask4 = c.defaultMask4 → d.defaultMask6 = c.defaultMask6 →
      (isAny (ip a.getIpv6.addr) → d.defaultAddress4 = c.defaultAddress4 ∧ d.defaultAddress6 = c.defaultAddress6) →
      (¬ isAny (ip a.getIpv6.addr) → isV4 (ip a.getIpv6.addr) →
        d.defaultAddress4 = dotted (ip a.getIpv6.addr % 2 ^ 32) ∧ d.defaultAddress6 = c.defaultAddress6) →
      (¬ isAny (ip a.getIpv6.addr) → ¬ isV4 (ip a.getIpv6.addr) →
        d.defaultAddress4 = c.defaultAddress4 ∧ Text6 (ip a.getIpv6.addr) d.defaultAddress6) →
      Changes { p with config := d } ((if a.getNetworkType.1.getPort ≠ 0 then
          Parser.setDefaultPortStr env.parse a.getNetworkType.1.getStrPort else Pure.pure ()) >>= fun _ =>
        if a.getNetworkType.1.getMaskSize ≠ -1 ∧ a.getNetworkType.1.getMaskSize ≠ 128 then
          if a.getNetworkType.1.isIpv4 = true then Parser.setDefaultMask env.parse (intStr a.getNetworkType.1.getMaskSize)
          else Parser.setDefaultMask env.parse ('[' :: intStr a.getNetworkType.1.getMaskSize ++ [']']) else Pure.pure ()) ()
        (Stored a c) := by
    intro c d e1 e2 e3 e4 e5 e6 g1 g2 g3
    refine changes_bind (use_port h _ _) ?_
    rintro d' rfl
    obtain ⟨d', hd, hm, he⟩ := use_mask h a.getNetworkType.1 { p with config := { d with defaultPort :=
      if a.getNetworkType.1.getPort ≠ 0 then (a.getNetworkType.1.getPort : Int) else d.defaultPort } }
    refine ⟨d', hd, ?_, ?_⟩
    · rw [he]
      exact ⟨g1, g2, g3, fun hp => by dsimp only; rw [hport, if_neg (by simpa using hp), e4],
        fun hp => by dsimp only; rw [hport, if_pos hp], e1, e2, e3⟩
    · have := (hmask _ _).1 hm
      refine ⟨fun hn => ?_, fun hv n h32 hn hx => ?_, fun hv n hn hx => ?_⟩
      · have := this.none hn; exact ⟨this.1.trans e5, this.2.trans e6⟩
      · have := this.v4 hv n h32 hn hx; exact ⟨this.1.trans e5, this.2⟩
      · have := this.v6 hv n hn hx; exact ⟨this.1.trans e5, this.2⟩
  have joined : Validator.useDefaults env a = (if a.getNetworkType.2 ≠ .any then
        PM.lift (a.getNetworkType.1.toIpv4or6String env.db STRING_IP_BRACKET_ADDRESS) >>= fun t =>
          Parser.setDefaultAddress t >>= fun _ => ((if a.getNetworkType.1.getPort ≠ 0 then
          Parser.setDefaultPortStr env.parse a.getNetworkType.1.getStrPort else Pure.pure ()) >>= fun _ =>
        if a.getNetworkType.1.getMaskSize ≠ -1 ∧ a.getNetworkType.1.getMaskSize ≠ 128 then
          if a.getNetworkType.1.isIpv4 = true then Parser.setDefaultMask env.parse (intStr a.getNetworkType.1.getMaskSize)
          else Parser.setDefaultMask env.parse ('[' :: intStr a.getNetworkType.1.getMaskSize ++ [']']) else Pure.pure ())
      else ((if a.getNetworkType.1.getPort ≠ 0 then
          Parser.setDefaultPortStr env.parse a.getNetworkType.1.getStrPort else Pure.pure ()) >>= fun _ =>
        if a.getNetworkType.1.getMaskSize ≠ -1 ∧ a.getNetworkType.1.getMaskSize ≠ 128 then
          if a.getNetworkType.1.isIpv4 = true then Parser.setDefaultMask env.parse (intStr a.getNetworkType.1.getMaskSize)
          else Parser.setDefaultMask env.parse ('[' :: intStr a.getNetworkType.1.getMaskSize ++ [']']) else Pure.pure ())) := by
    unfold Validator.useDefaults
    dsimp only
    by_cases hp : a.getNetworkType.1.getPort ≠ 0
    · simp only [if_pos hp]
    · simp only [if_neg hp]
      rfl
  rw [joined]
  by_cases ha : isAny (ip a.getIpv6.addr)
  · rw [if_neg (fun h => hany.1 h ha)]
    exact tail p.config p.config rfl rfl rfl rfl rfl rfl (fun _ => ⟨rfl, rfl⟩) (fun h => absurd ha h) fun h => absurd ha h
  · rw [if_pos (hany.2 ha)]
    refine use_address env a.getNetworkType.1 p ?_ (by rw [hbytes]; exact ha)
    intro d e1 e2 e3 e4 e5 e6 g1 g2
    rw [hbytes] at g1 g2
    exact tail p.config d e1 e2 e3 e4 e5 e6 (fun h => absurd h ha) (fun _ => g1) fun _ => g2

theorem reads_new {env : ParseEnv} {t : Str} {a : Addr} (h : ReadsAs env t a) : a.privateNetwork = .undefined := by
  obtain ⟨r, h1, h2, _, rfl⟩ := h
  obtain ⟨_, h4, _⟩ := C45_sources env t textParser [r] h1 r (List.mem_singleton.2 rfl)
  obtain ⟨_, _, _, _, _, h5⟩ := h4 h2
  exact h5

theorem default_value {env : Validator.Env} (h : ReadsNumbers env.parse) {t : Str} {a : Addr} (ht : ReadsAs env.parse t a) (p : Parser) :
    Changes p (Validator.defaultValue env t) 0 (Stored a p.config) := by
  have hu := reads_new ht
  obtain ⟨r, h1, h2, h3, rfl⟩ := ht
  unfold Validator.defaultValue
  rw [show (Parser.parse env.parse t Validator.defaultsParser).2 = .ok [r] from h1, PM.lift_ok_bind]
  dsimp only
  rw [if_pos (by rw [h2, h3]; rfl)]
  exact changes_bind (use_defaults h r.lo hu p) fun d hd => ⟨d, rfl, hd⟩

theorem default_loop {env : Validator.Env} (h : ReadsNumbers env.parse) {values : List Str} {l : List Addr}
    (hv : List.Forall₂ (ReadsAs env.parse) values l) (p : Parser) :
    Changes p (Validator.defaultLoop env values) 0 (Steps Stored l p.config) := by
  induction hv generalizing p with
  | nil => exact ⟨p.config, rfl, rfl⟩
  | cons h1 _ ih =>
    rw [Validator.defaultLoop]
    refine changes_bind (default_value h h1 p) fun d hd => ?_
    refine changes_bind (ih _) fun e he => ⟨e, rfl, d, hd, he⟩

theorem default_option {env : Validator.Env} (h : ReadsNumbers env.parse) {o : Str} {l : List Addr}
    (ho : optionName o = "default".toList ∨ optionName o = "defaults".toList) (hy : optionValues env.split o ≠ ["yes".toList])
    (hv : List.Forall₂ (ReadsAs env.parse) (optionValues env.split o) l) (p : Parser) :
    Changes p (Validator.option env o) 0 (Steps Stored l p.config) := by
  unfold Validator.option
  have hne : o ≠ [] := by
    rintro rfl
    exact ho.elim (by decide) (by decide)
  rw [if_neg hne, Validator.nameAndValues_eq]
  dsimp only
  rw [if_neg (by rcases ho with ho | ho <;> rw [ho] <;> decide), if_neg (by rcases ho with ho | ho <;> rw [ho] <;> decide), if_pos ho,
    Validator.defaultOption, if_neg hy]
  exact default_loop h hv p

theorem options_append (env : Validator.Env) (data : List Str) (o : Str) (p v q : Parser) (n m : Nat)
    (h1 : Validator.options env data p = (v, .ok n)) (h2 : Validator.option env o v = (q, .ok m)) :
    Validator.options env (data ++ [o]) p = (q, .ok (n + m)) := by
  induction data generalizing p n with
  | nil =>
    cases h1
    rw [List.nil_append, Validator.options, PM.bind_def, h2]
    show (q, Res.ok (m + 0)) = _
    rw [Nat.add_zero, Nat.zero_add]
  | cons x l ih =>
    rw [Validator.options, PM.bind_def] at h1
    rw [List.cons_append, Validator.options, PM.bind_def]
    rcases hx : Validator.option env x p with ⟨p', k | e | w⟩
    · rw [hx] at h1
      dsimp only at h1 ⊢
      rw [PM.bind_def] at h1 ⊢
      rcases hl : Validator.options env l p' with ⟨q', k' | e | w⟩
      · rw [hl] at h1
        have e1 : q' = v ∧ k + k' = n := by cases h1; exact ⟨rfl, rfl⟩
        obtain ⟨rfl, rfl⟩ := e1
        rw [ih p' k' hl]
        show (q, Res.ok (k + (k' + m))) = _
        rw [Nat.add_assoc]
      · rw [hl] at h1; cases h1
      · rw [hl] at h1; cases h1
    · rw [hx] at h1; cases h1
    · rw [hx] at h1; cases h1

theorem steps_mono {α β : Type} {f g : α → β → β → Prop} {l : List α} (h : ∀ a ∈ l, ∀ c d, f a c d → g a c d) {c d : β}
    (hs : Steps f l c d) : Steps g l c d := by
  induction l generalizing c with
  | nil => exact hs
  | cons a l ih =>
    obtain ⟨e, h1, h2⟩ := hs
    exact ⟨e, h a List.mem_cons_self c e h1, ih (fun b hb => h b (List.mem_cons_of_mem _ hb)) h2⟩

/-! ## C77 -/

/-- The claim of C77: the defaults of a validator become those of the addresses of its option `default`, one after the other. -/
def C77_claim : Prop :=
  ∀ (env : Validator.Env) (data : List Str) (v : Parser) (n : Nat) (o : Str) (l : List Addr), ReadsNumbers env.parse →
    Validator.create env data = .ok (v, n) → (optionName o = "default".toList ∨ optionName o = "defaults".toList) →
    optionValues env.split o ≠ ["yes".toList] → List.Forall₂ (ReadsAs env.parse) (optionValues env.split o) l →
    ∃ q, Validator.create env (data ++ [o]) = .ok (q, n)
      ∧ Steps (fun a c d => DefaultsOf a c d ∧ MaskDefault a c d) l v.config q.config

/-- **C77**: the default address and port become those of the addresses. The mask of an IPv6 address becomes the default mask of
IPv6, the one of an IPv4 address becomes the default mask of IPv6 too, with 96 bits more. -/
theorem C77_defaults_exact (env : Validator.Env) (data : List Str) (v : Parser) (n : Nat) (o : Str) (l : List Addr)
    (hn : ReadsNumbers env.parse) (h : Validator.create env data = .ok (v, n))
    (ho : optionName o = "default".toList ∨ optionName o = "defaults".toList) (hy : optionValues env.split o ≠ ["yes".toList])
    (hv : List.Forall₂ (ReadsAs env.parse) (optionValues env.split o) l) :
    ∃ q, Validator.create env (data ++ [o]) = .ok (q, n)
      ∧ Steps (fun a c d => DefaultsOf a c d ∧ MaskStored a c d) l v.config q.config := by
  obtain ⟨d, h1, h2⟩ := default_option hn ho hy hv v
  exact ⟨{ v with config := d }, by rw [Validator.create, options_append env data o _ v _ n 0 (created h) h1]; rfl, h2⟩

/-- **C77**, for addresses which are IPv6 addresses or have no mask (a full one). -/
theorem C77_defaults_partial (env : Validator.Env) (data : List Str) (v : Parser) (n : Nat) (o : Str) (l : List Addr)
    (hn : ReadsNumbers env.parse) (h : Validator.create env data = .ok (v, n))
    (ho : optionName o = "default".toList ∨ optionName o = "defaults".toList) (hy : optionValues env.split o ≠ ["yes".toList])
    (hv : List.Forall₂ (ReadsAs env.parse) (optionValues env.split o) l)
    (hl : ∀ a ∈ l, ¬ isV4 (ip a.getIpv6.addr) ∨ ip a.getMask = prefixMask 128) :
    ∃ q, Validator.create env (data ++ [o]) = .ok (q, n)
      ∧ Steps (fun a c d => DefaultsOf a c d ∧ MaskDefault a c d) l v.config q.config := by
  obtain ⟨q, h1, h2⟩ := C77_defaults_exact env data v n o l hn h ho hy hv
  refine ⟨q, h1, steps_mono (fun a ha c d hs => ⟨hs.1, hs.2.none, fun hv4 k hk he => ?_, hs.2.v6⟩) h2⟩
  rcases hl a ha with ha | ha
  · exact absurd hv4 ha
  · exfalso
    rw [he] at ha
    have := prefixMask_inj (by omega) (by omega) ha
    omega

/-- The address which a text denotes, for the examples. -/
def sampleReads (t : Str) : Addr :=
  match (Parser.parse validatorEnv.parse t textParser).2 with
  | .ok [r] => r.lo
  | _ => Addr.default

theorem sampleReads_reads {t : Str}
    (h : (match (Parser.parse validatorEnv.parse t textParser).2 with
      | .ok [r] => r.hasFrom && !r.hasTo
      | _ => false) = true) : ReadsAs validatorEnv.parse t (sampleReads t) := by
  unfold ReadsAs sampleReads
  revert h
  split
  · rename_i r hr
    intro h
    rw [Bool.and_eq_true, Bool.not_eq_true'] at h
    exact ⟨r, hr, h.1, h.2, rfl⟩
  · intro h; cases h

/-- C77 is false: `default=10.0.0.1/8` sets the default mask of IPv6 to 104, and none for IPv4. -/
theorem C77_claim_fails : ¬ C77_claim := by
  intro h
  have hr : ReadsAs validatorEnv.parse "10.0.0.1/8".toList (sampleReads "10.0.0.1/8".toList) :=
    sampleReads_reads (by decide +kernel)
  have hvalues : optionValues validatorEnv.split "default=10.0.0.1/8".toList = ["10.0.0.1/8".toList] := by decide +kernel
  obtain ⟨q, h1, e, h2, h3⟩ := h validatorEnv [] Parser.create 0 "default=10.0.0.1/8".toList [sampleReads "10.0.0.1/8".toList]
    validatorEnv_safe.2.2 rfl (.inl (by decide +kernel)) (by rw [hvalues]; decide +kernel) (by rw [hvalues]; exact .cons hr .nil)
  have h3 : q.config = e := h3
  have h4 := (h2.2.v4 (by decide +kernel) 8 (by decide) (by decide +kernel)).1
  have h5 : q = sampleValidator ([] ++ ["default=10.0.0.1/8".toList]) := by
    unfold sampleValidator
    rw [h1]
  have h6 : (sampleValidator ([] ++ ["default=10.0.0.1/8".toList])).config.defaultMask4 = []
      ∧ (sampleValidator ([] ++ ["default=10.0.0.1/8".toList])).config.defaultMask6 = "104".toList := by decide +kernel
  rw [← h3, h5, h6.1] at h4
  exact absurd h4 (by decide +kernel)

-- The hypotheses of the theorems are met.
example : List.Forall₂ (ReadsAs validatorEnv.parse) (optionValues validatorEnv.split "defaults=10.0.0.1 [::1]/64".toList)
      [sampleReads "10.0.0.1".toList, sampleReads "[::1]/64".toList]
    ∧ ip (sampleReads "10.0.0.1".toList).getMask = prefixMask 128
    ∧ ip (sampleReads "[::1]/64".toList).getMask = prefixMask 64 := by
  refine ⟨?_, by decide +kernel, by decide +kernel⟩
  rw [show optionValues validatorEnv.split "defaults=10.0.0.1 [::1]/64".toList = ["10.0.0.1".toList, "[::1]/64".toList] by
    decide +kernel]
  exact .cons (sampleReads_reads (by decide +kernel)) (.cons (sampleReads_reads (by decide +kernel)) .nil)

end Verif
