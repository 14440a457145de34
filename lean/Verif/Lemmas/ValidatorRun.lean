import Verif.Lemmas.Validator
import Verif.Lemmas.ParserSafe
import Verif.Props.AddrText
import Verif.Props.AddrMask
import Verif.Props.AddrState
import Verif.Props.ParserTotal

/-!
# Lemmas about the options of the address validator
-/

namespace Verif

open Spec Inet

namespace Validator

/-- What no option changes: the order, the protocol and the errors. -/
structure SameRest (p q : Parser) : Prop where
  sort : q.config.sort = p.config.sort
  protocol : q.config.protocol = p.config.protocol
  error : q.error = p.error
  errorCount : q.errorCount = p.errorCount

theorem SameRest.refl (p : Parser) : SameRest p p := ⟨rfl, rfl, rfl, rfl⟩

theorem SameRest.trans {p q r : Parser} (h : SameRest p q) (h' : SameRest q r) : SameRest p r :=
  ⟨h'.sort.trans h.sort, h'.protocol.trans h.protocol, h'.error.trans h.error, h'.errorCount.trans h.errorCount⟩

/-- The call on this parser changes default values only. -/
def KeepsAt {α : Type} (p : Parser) (m : PM α) : Prop := SameRest p (m p).1 ∧ (m p).1.config.flags = p.config.flags

/-- The call changes default values only. -/
def Keeps {α : Type} (m : PM α) : Prop := ∀ p, KeepsAt p m

theorem keepsAt_config {α : Type} {p : Parser} {f : Config → PM α} (h : KeepsAt p (f p.config)) : KeepsAt p (PM.config >>= f) := h

theorem keeps_pure {α : Type} (a : α) : Keeps (Pure.pure a : PM α) := fun p => ⟨.refl p, rfl⟩

theorem keeps_lift {α : Type} (r : Res α) : Keeps (PM.lift r) := fun p => ⟨.refl p, rfl⟩

theorem keeps_bind {α β : Type} {m : PM α} {f : α → PM β} (hm : Keeps m) (hf : ∀ a, Keeps (f a)) : Keeps (m >>= f) := by
  intro p
  unfold KeepsAt
  rw [PM.bind_def]
  have h1 := hm p
  unfold KeepsAt at h1
  revert h1
  rcases m p with ⟨p', a | e | w⟩
  · intro h1
    have h2 := hf a p'
    exact ⟨h1.1.trans h2.1, h2.2.trans h1.2⟩
  · exact fun h1 => h1
  · exact fun h1 => h1

theorem keeps_setDefaultAddress (address : Str) : Keeps (Parser.setDefaultAddress address) := by
  intro p
  unfold Parser.setDefaultAddress
  refine keepsAt_config ?_
  cases address with
  | nil => exact ⟨⟨rfl, rfl, rfl, rfl⟩, rfl⟩
  | cons x l =>
    split
    · exact ⟨⟨rfl, rfl, rfl, rfl⟩, rfl⟩
    · split <;> exact ⟨⟨rfl, rfl, rfl, rfl⟩, rfl⟩
    · split <;> exact ⟨⟨rfl, rfl, rfl, rfl⟩, rfl⟩

theorem keeps_setDefaultPort (port : Int) : Keeps (Parser.setDefaultPort port) := by
  intro p
  unfold Parser.setDefaultPort
  split <;> exact ⟨⟨rfl, rfl, rfl, rfl⟩, rfl⟩

theorem keeps_setDefaultPortStr (env : ParseEnv) (port : Str) : Keeps (Parser.setDefaultPortStr env port) := by
  unfold Parser.setDefaultPortStr
  split
  · exact keeps_setDefaultPort _
  · cases env.convert port with
    | none => exact fun p => ⟨⟨rfl, rfl, rfl, rfl⟩, rfl⟩
    | some n => exact keeps_setDefaultPort _

theorem keeps_setDefaultMask (env : ParseEnv) (mask : Str) : Keeps (Parser.setDefaultMask env mask) := by
  intro p
  unfold Parser.setDefaultMask
  refine keepsAt_config ?_
  dsimp only
  repeat' split
  all_goals exact ⟨⟨rfl, rfl, rfl, rfl⟩, rfl⟩

theorem keeps_useDefaults (env : Env) (a : Addr) : Keeps (useDefaults env a) := by
  unfold useDefaults
  dsimp only
  have h1 : ∀ (b : Addr), Keeps (if b.getMaskSize ≠ -1 ∧ b.getMaskSize ≠ 128 then
      if b.isIpv4 = true then Parser.setDefaultMask env.parse (intStr b.getMaskSize)
      else Parser.setDefaultMask env.parse ('[' :: intStr b.getMaskSize ++ [']']) else Pure.pure ()) := by
    intro b
    split
    · split <;> exact keeps_setDefaultMask _ _
    · exact keeps_pure _
  split
  · refine keeps_bind (keeps_lift _) fun text => keeps_bind (keeps_setDefaultAddress _) fun _ => ?_
    split
    · exact keeps_bind (keeps_setDefaultPortStr _ _) fun _ => h1 _
    · exact h1 _
  · split
    · exact keeps_bind (keeps_setDefaultPortStr _ _) fun _ => h1 _
    · exact h1 _

theorem keeps_defaultValue (env : Env) (param : Str) : Keeps (defaultValue env param) := by
  unfold defaultValue
  refine keeps_bind (keeps_lift _) fun l => ?_
  split
  · split
    · exact keeps_bind (keeps_useDefaults env _) fun _ => keeps_pure _
    · exact keeps_pure _
  · exact keeps_pure _

theorem keeps_defaultLoop (env : Env) (l : List Str) : Keeps (defaultLoop env l) := by
  induction l with
  | nil => exact keeps_pure _
  | cons v l ih => exact keeps_bind (keeps_defaultValue env v) fun n => keeps_bind ih fun m => keeps_pure _

theorem keeps_defaultOption (env : Env) (values : List Str) : Keeps (defaultOption env values) := by
  unfold defaultOption
  split
  · exact keeps_bind (keeps_setDefaultAddress _) fun _ => keeps_bind (keeps_setDefaultPortStr _ _) fun _ =>
      keeps_bind (keeps_setDefaultMask _ _) fun _ => keeps_pure _
  · exact keeps_defaultLoop env values

theorem splitFirst_eq (c : Char) (s : Str) : Parser.splitFirst c s =
    match s.dropWhile (· ≠ c) with
    | [] => none
    | _ :: rest => some (s.takeWhile (· ≠ c), rest) := by
  induction s with
  | nil => rfl
  | cons x s ih =>
    rw [Parser.splitFirst]
    by_cases h : x = c
    · rw [if_pos h, List.dropWhile_cons_of_neg (by simp [h]), List.takeWhile_cons_of_neg (by simp [h])]
    · rw [if_neg h, ih, List.dropWhile_cons_of_pos (by simp [h]), List.takeWhile_cons_of_pos (by simp [h])]
      cases s.dropWhile (· ≠ c) <;> rfl

theorem takeWhile_eq_self {c : Char} {s : Str} (h : s.dropWhile (· ≠ c) = []) : s.takeWhile (· ≠ c) = s := by
  have := List.takeWhile_append_dropWhile (p := (· ≠ c)) (l := s)
  rw [h, List.append_nil] at this
  exact this

theorem nameAndValues_eq (env : Env) (p : Str) : nameAndValues env p = (optionName p, optionValues env.split p) := by
  unfold nameAndValues optionName optionValues
  rw [splitFirst_eq]
  cases h : p.dropWhile (· ≠ '=') with
  | nil => rw [takeWhile_eq_self h]
  | cons x rest =>
    dsimp only
    congr 1
    by_cases h' : env.split rest = []
    · rw [if_pos h', if_pos (by rw [h']; rfl)]
    · rw [if_neg h', if_neg (by rw [List.isEmpty_iff]; exact h')]

theorem newFlags_other {name : Str} (h : ∀ f, governedBy f ≠ some name) (values : List Str) (flags : Allow → Bool) :
    newFlags name values flags = flags := by
  funext f
  rw [newFlags, if_neg (h f)]

theorem newFlags_ports {name : Str} (values : List Str) (flags : Allow → Bool) :
    newFlags name values flags .multiPortsCommas = flags .multiPortsCommas := by
  rw [newFlags, if_neg (fun h => nomatch h)]

theorem sets_run {p : Parser} {m : PM Nat} {flags : Allow → Bool} {good : Prop} (h : Sets p m flags good) :
    SameRest p (m p).1 ∧ (m p).1.config.flags = flags := by
  obtain ⟨n, h1, _⟩ := h
  rw [h1]
  exact ⟨⟨rfl, rfl, rfl, rfl⟩, rfl⟩

/-- One option. -/
theorem option_flags (env : Env) (o : Str) (p : Parser) (hp : p.config.flags .multiPortsCommas = false) :
    SameRest p (option env o p).1
      ∧ (option env o p).1.config.flags = newFlags (optionName o) (optionValues env.split o) p.config.flags := by
  unfold option
  by_cases h0 : o = []
  · rw [if_pos h0, h0]
    refine ⟨.refl p, ?_⟩
    rw [newFlags_other (by intro f; cases f <;> decide)]
    rfl
  rw [if_neg h0, nameAndValues_eq]
  dsimp only
  generalize optionName o = name
  generalize optionValues env.split o = values
  by_cases h1 : name = "address".toList
  · rw [if_pos h1, h1]
    exact sets_run (sets_addressOption p hp values)
  rw [if_neg h1]
  by_cases h2 : name = "comment".toList
  · rw [if_pos h2, h2]
    exact sets_run (sets_commentOption p hp values)
  rw [if_neg h2]
  by_cases h3 : name = "default".toList ∨ name = "defaults".toList
  · rw [if_pos h3, newFlags_other (by rcases h3 with rfl | rfl <;> intro f <;> cases f <;> decide)]
    exact keeps_defaultOption env values p
  rw [if_neg h3]
  by_cases h4 : name = "mask".toList
  · rw [if_pos h4, h4]
    exact sets_run (sets_maskOption p hp values)
  rw [if_neg h4]
  by_cases h5 : name = "port".toList
  · rw [if_pos h5, h5]
    exact sets_run (sets_portOption p hp values)
  rw [if_neg h5]
  refine ⟨.refl p, ?_⟩
  rw [newFlags_other]
  · rfl
  · intro f h
    cases f <;> simp only [governedBy, Option.some.injEq, reduceCtorEq] at h
    all_goals first | exact h1 h.symm | exact h2 h.symm | exact h4 h.symm | exact h5 h.symm

open Classical in
/-- The flags once all the options were seen. -/
theorem options_flags (env : Env) (data : List Str) (p q : Parser) (n : Nat) (hp : p.config.flags .multiPortsCommas = false)
    (h : options env data p = (q, .ok n)) :
    SameRest p q ∧ ∀ f, q.config.flags f =
      match governedBy f with
      | none => p.config.flags f
      | some name =>
        match lastValues env.split name data with
        | none => p.config.flags f
        | some values => decide (allowedBy values f) := by
  induction data generalizing p n with
  | nil =>
    obtain rfl : q = p := (congrArg Prod.fst h).symm
    refine ⟨.refl q, fun f => ?_⟩
    cases governedBy f <;> rfl
  | cons o l ih =>
    rw [options, PM.bind_def] at h
    obtain ⟨h1, h2⟩ := option_flags env o p hp
    revert h h1 h2
    rcases option env o p with ⟨p', a | e | w⟩
    · intro h h1 h2
      dsimp only at h h1 h2
      rw [PM.bind_def] at h
      have h3 : p'.config.flags .multiPortsCommas = false := by rw [h2, newFlags_ports]; exact hp
      rcases h4 : options env l p' with ⟨p'', b | e | w⟩
      · rw [h4] at h
        obtain rfl : p'' = q := congrArg Prod.fst h
        obtain ⟨h5, h6⟩ := ih p' b h3 h4
        refine ⟨h1.trans h5, fun f => ?_⟩
        rw [h6 f, h2]
        cases hg : governedBy f with
        | none => exact if_neg (by rw [hg]; exact fun h => nomatch h)
        | some name =>
          dsimp only
          rw [lastValues]
          cases lastValues env.split name l with
          | some values => rfl
          | none =>
            dsimp only
            rw [newFlags, hg]
            by_cases hn : optionName o = name
            · rw [if_pos hn, if_pos (by rw [hn])]
            · rw [if_neg hn, if_neg (fun h => hn (Option.some.inj h).symm)]
      · rw [h4] at h
        cases h
      · rw [h4] at h
        cases h
    · intro h
      cases h
    · intro h
      cases h

/-! ### The construction ends -/

theorem bracket_text4 (db : NetDb) (a : Addr) (h : a.isIpv4 = true) :
    a.toIpv4or6String db STRING_IP_BRACKET_ADDRESS = .ok (Inet.ntop4 (last4 a.bytes)) := by
  rw [Addr.toIpv4or6String, if_pos h]
  have f1 : anyOf STRING_IP_BRACKET_ADDRESS (STRING_IP_ADDRESS ||| STRING_IP_BRACKET_ADDRESS) = true := by decide
  have f2 : anyOf STRING_IP_BRACKET_ADDRESS STRING_IP_DEFAULT_AS_ASTERISK = false := by decide
  have f3 : anyOf STRING_IP_BRACKET_ADDRESS (STRING_IP_PORT ||| STRING_IP_PORT_NAME) = false := by decide
  have f4 : anyOf STRING_IP_BRACKET_ADDRESS
      (STRING_IP_MASK ||| STRING_IP_BRACKET_MASK ||| STRING_IP_MASK_AS_ADDRESS ||| STRING_IP_MASK_IF_NEEDED) = false := by decide
  simp [Addr.toIpv4String, Addr.addressPart4, Addr.portPart, Addr.maskPart4, Addr.wantsMask, f1, f2, f3, f4, h, last4]

theorem bracket_text6 (db : NetDb) (a : Addr) (h : a.isIpv4 = false) :
    ∃ s, a.toIpv4or6String db STRING_IP_BRACKET_ADDRESS = .ok ('[' :: s ++ [']'])
      ∧ (¬ a.isDefault = true → s = ntop6 a.bytes) := by
  rw [Addr.toIpv4or6String, if_neg (by rw [h]; decide)]
  have f1 : anyOf STRING_IP_BRACKET_ADDRESS (STRING_IP_ADDRESS ||| STRING_IP_BRACKET_ADDRESS) = true := by decide
  have f2 : anyOf STRING_IP_BRACKET_ADDRESS STRING_IP_DEFAULT_AS_ASTERISK = false := by decide
  have f3 : anyOf STRING_IP_BRACKET_ADDRESS (STRING_IP_PORT ||| STRING_IP_PORT_NAME) = false := by decide
  have f4 : anyOf STRING_IP_BRACKET_ADDRESS
      (STRING_IP_MASK ||| STRING_IP_BRACKET_MASK ||| STRING_IP_MASK_AS_ADDRESS ||| STRING_IP_MASK_IF_NEEDED) = false := by decide
  have f5 : anyOf STRING_IP_BRACKET_ADDRESS STRING_IP_DEFAULT_AS_IPV4 = false := by decide
  have f6 : Addr.includeBrackets STRING_IP_BRACKET_ADDRESS = true := by decide
  simp only [Addr.toIpv6String, Addr.addressPart6, Addr.portPart, Addr.maskPart6, Addr.wantsMask, f1, f2, f3, f4, f5, f6]
  cases a.isDefault
  · exact ⟨ntop6 a.bytes, by simp [Addr.bracketed], fun _ => rfl⟩
  · exact ⟨"::".toList, by simp [Addr.bracketed], fun h => absurd rfl h⟩

/-- The call on this parser ends normally. -/
def EndsAt {α : Type} (p : Parser) (m : PM α) : Prop := ∃ q a, m p = (q, .ok a)

/-- The call ends normally. -/
def Ends {α : Type} (m : PM α) : Prop := ∀ p, EndsAt p m

theorem endsAt_config {α : Type} {p : Parser} {f : Config → PM α} (h : EndsAt p (f p.config)) : EndsAt p (PM.config >>= f) := h

theorem ends_bind {α β : Type} {m : PM α} {f : α → PM β} (hm : Ends m) (hf : ∀ a, Ends (f a)) : Ends (m >>= f) := by
  intro p
  obtain ⟨q, a, h⟩ := hm p
  obtain ⟨r, b, h'⟩ := hf a q
  exact ⟨r, b, by rw [PM.bind_def, h]; exact h'⟩

theorem ends_pure {α : Type} (a : α) : Ends (Pure.pure a : PM α) := fun p => ⟨p, a, rfl⟩

theorem ends_setDefaultAddress {t : Str} (h : t.head? = some '[' → t.getLast? = some ']') : Ends (Parser.setDefaultAddress t) := by
  intro p
  unfold Parser.setDefaultAddress
  refine endsAt_config ?_
  split
  · exact ⟨_, _, rfl⟩
  · rw [if_neg (by rw [h rfl]; exact fun h => h rfl)]
    exact ⟨_, _, rfl⟩
  · split <;> exact ⟨_, _, rfl⟩

theorem ends_setDefaultPort {port : Int} (h : -1 ≤ port ∧ port ≤ 65535) : Ends (Parser.setDefaultPort port) := by
  intro p
  unfold Parser.setDefaultPort
  rw [if_neg (by omega)]
  exact ⟨_, _, rfl⟩

theorem ends_setDefaultPortStr {env : ParseEnv} (h : ReadsNumbers env) (n : Nat) (hn : n ≤ 65535) :
    Ends (Parser.setDefaultPortStr env (decStr n)) := by
  unfold Parser.setDefaultPortStr
  split
  · exact ends_setDefaultPort (by decide)
  · rw [decStr_dec, h n hn]
    refine ends_setDefaultPort ?_
    rw [toCInt_self _ (by unfold IsCInt; omega)]
    omega

theorem ends_setDefaultMask {env : ParseEnv} (h : ReadsNumbers env) (n : Nat) (hn : n ≤ 128) :
    Ends (Parser.setDefaultMask env (decStr n)) := by
  intro p
  unfold Parser.setDefaultMask
  refine endsAt_config ?_
  split
  · exact ⟨_, _, rfl⟩
  dsimp only
  have h1 : ((decStr n).head? == some '[') = false := by
    rw [beq_eq_false_iff_ne]
    exact fun h => absurd (decStr_chars n _ (List.mem_of_mem_head? h)) (by decide)
  have h2 : ((decStr n).getLast? == some ']') = false := by
    rw [beq_eq_false_iff_ne]
    exact fun h => absurd (decStr_chars n _ (List.mem_of_mem_getLast? h)) (by decide)
  rw [h1, h2, if_neg (by decide), if_neg (by decide)]
  split
  · exact ⟨_, _, rfl⟩
  · rw [decStr_dec, h n (by omega)]
    dsimp only
    rw [if_neg (by omega)]
    split <;> exact ⟨_, _, rfl⟩

theorem ends_setDefaultMask6 (env : ParseEnv) (s : Str) : Ends (Parser.setDefaultMask env ('[' :: s ++ [']'])) := by
  intro p
  unfold Parser.setDefaultMask
  refine endsAt_config ?_
  rw [if_neg (by simp)]
  dsimp only
  have h2 : (('[' :: s ++ [']']).getLast? == some ']') = true := by
    rw [List.getLast?_append]; rfl
  rw [h2, if_pos (by rfl)]
  exact ⟨_, _, rfl⟩

theorem ends_useDefaults {env : Env} (h : ReadsNumbers env.parse) (a : Addr) : Ends (useDefaults env a) := by
  unfold useDefaults
  dsimp only
  have h1 : ∀ (b : Addr), Ends (if b.getMaskSize ≠ -1 ∧ b.getMaskSize ≠ 128 then
      if b.isIpv4 = true then Parser.setDefaultMask env.parse (intStr b.getMaskSize)
      else Parser.setDefaultMask env.parse ('[' :: intStr b.getMaskSize ++ [']']) else Pure.pure ()) := by
    intro b
    split
    · split
      · obtain ⟨_, h2, h3⟩ := C09_mask_size_other b
        have : intStr b.getMaskSize = decStr b.getMaskSize.natAbs := by rw [intStr, if_neg (by omega)]
        rw [this]
        exact ends_setDefaultMask h _ (by omega)
      · exact ends_setDefaultMask6 _ _
    · exact ends_pure _
  have h2 : ∀ (b : Addr), Ends (Parser.setDefaultPortStr env.parse b.getStrPort) := fun b =>
    ends_setDefaultPortStr h _ (Nat.le_of_lt_succ (BitVec.isLt _))
  split
  · obtain ⟨t, ht, hq⟩ : ∃ t, a.getNetworkType.1.toIpv4or6String env.db STRING_IP_BRACKET_ADDRESS = .ok t
        ∧ (t.head? = some '[' → t.getLast? = some ']') := by
      by_cases hb : a.getNetworkType.1.isIpv4 = true
      · refine ⟨_, bracket_text4 _ _ hb, fun h => ?_⟩
        have : '[' ∈ ntop4 (last4 a.getNetworkType.1.bytes) := List.mem_of_mem_head? h
        exact absurd (ntop4_chars _ _ this) (by decide)
      · obtain ⟨s, hs, _⟩ := bracket_text6 env.db a.getNetworkType.1 (by simpa using hb)
        exact ⟨_, hs, fun _ => by rw [List.getLast?_append]; rfl⟩
    rw [ht, PM.lift_ok_bind]
    refine ends_bind (ends_setDefaultAddress hq) fun _ => ?_
    split
    · exact ends_bind (h2 _) fun _ => h1 _
    · exact h1 _
  · split
    · exact ends_bind (h2 _) fun _ => h1 _
    · exact h1 _

/-- The call ends normally, and logs nothing exactly when `good`. -/
def Logs (p : Parser) (m : PM Nat) (good : Prop) : Prop := ∃ q n, m p = (q, .ok n) ∧ (n = 0 ↔ good)

theorem logs_defaultValue {env : Env} (hs : SafeAnswers env.parse) (h : ReadsNumbers env.parse) (param : Str) (p : Parser) :
    Logs p (defaultValue env param) (OneAddress env.parse param) := by
  unfold defaultValue
  obtain ⟨l, hl⟩ := C67_answers_partial env.parse param defaultsParser
    ⟨fun _ => hs, fun h => absurd h (by decide), fun _ h => absurd h (by decide)⟩ (by decide)
  have hl' : (Parser.parse env.parse param textParser).2 = .ok l := hl
  rw [hl, PM.lift_ok_bind]
  match l with
  | [r] =>
    dsimp only
    by_cases hr : (r.hasFrom && !r.hasTo) = true
    · rw [if_pos hr]
      obtain ⟨q, _, hq⟩ := ends_useDefaults h r.lo p
      rw [Bool.and_eq_true, Bool.not_eq_true'] at hr
      exact ⟨q, 0, by rw [PM.bind_def, hq]; rfl, ⟨fun _ => ⟨r, hl', hr.1, hr.2⟩, fun _ => rfl⟩⟩
    · rw [if_neg hr]
      refine ⟨p, 1, rfl, ⟨(fun h => nomatch h), ?_⟩⟩
      rintro ⟨r', h1, h2, h3⟩
      rw [hl'] at h1
      obtain rfl : r = r' := List.singleton_inj.1 (Res.ok.inj h1)
      rw [h2, h3] at hr
      exact absurd rfl hr
  | [] =>
    refine ⟨p, 1, rfl, ⟨(fun h => nomatch h), ?_⟩⟩
    rintro ⟨r', h1, h2, h3⟩
    rw [hl'] at h1
    cases Res.ok.inj h1
  | r1 :: r2 :: l =>
    refine ⟨p, 1, rfl, ⟨(fun h => nomatch h), ?_⟩⟩
    rintro ⟨r', h1, h2, h3⟩
    rw [hl'] at h1
    cases Res.ok.inj h1

theorem logs_defaultLoop {env : Env} (hs : SafeAnswers env.parse) (h : ReadsNumbers env.parse) (l : List Str) (p : Parser) :
    Logs p (defaultLoop env l) (∀ v ∈ l, OneAddress env.parse v) := by
  induction l generalizing p with
  | nil => exact ⟨p, 0, rfl, ⟨(fun _ _ h => nomatch h), fun _ => rfl⟩⟩
  | cons v l ih =>
    obtain ⟨q, n, h1, h2⟩ := logs_defaultValue hs h v p
    obtain ⟨r, m, h3, h4⟩ := ih q
    refine ⟨r, n + m, ?_, ?_⟩
    · rw [defaultLoop, PM.bind_def, h1]
      dsimp only
      rw [PM.bind_def, h3]
      rfl
    · rw [Nat.add_eq_zero_iff, h2, h4]
      simp only [List.mem_cons, forall_eq_or_imp]

theorem logs_defaultOption {env : Env} (hs : SafeAnswers env.parse) (h : ReadsNumbers env.parse) (values : List Str) (p : Parser) :
    Logs p (defaultOption env values) (values = ["yes".toList] ∨ ∀ v ∈ values, OneAddress env.parse v) := by
  unfold defaultOption
  by_cases hy : values = ["yes".toList]
  · rw [if_pos hy]
    exact ⟨_, 0, rfl, ⟨fun _ => .inl hy, fun _ => rfl⟩⟩
  · rw [if_neg hy]
    obtain ⟨q, n, h1, h2⟩ := logs_defaultLoop hs h values p
    exact ⟨q, n, h1, h2.trans ⟨.inr, fun h => h.resolve_left hy⟩⟩

theorem logs_sets {p : Parser} {m : PM Nat} {flags : Allow → Bool} {good : Prop} (h : Sets p m flags good) : Logs p m good := by
  obtain ⟨n, h1, h2⟩ := h
  exact ⟨_, n, h1, h2⟩

theorem logs_congr {p : Parser} {m : PM Nat} {good good' : Prop} (h : Logs p m good) (hg : good ↔ good') : Logs p m good' := by
  obtain ⟨q, n, h1, h2⟩ := h
  exact ⟨q, n, h1, h2.trans hg⟩

theorem documented_name {name : Str} {values : List Str} (h : Documented name values) :
    name = "address".toList ∨ name = "comment".toList ∨ name = "mask".toList ∨ name = "port".toList := by
  rcases h with h | h | h | h
  · exact .inl h.1
  · exact .inr (.inl h.1)
  · exact .inr (.inr (.inl h.1))
  · exact .inr (.inr (.inr h.1))

theorem logs_option {env : Env} (hs : SafeAnswers env.parse) (h : ReadsNumbers env.parse) (o : Str) (p : Parser)
    (hp : p.config.flags .multiPortsCommas = false) : Logs p (option env o) (o = [] ∨ GoodOption env.parse env.split o) := by
  unfold option GoodOption
  by_cases h0 : o = []
  · rw [if_pos h0]
    exact ⟨p, 0, rfl, ⟨fun _ => .inl h0, fun _ => rfl⟩⟩
  rw [if_neg h0, nameAndValues_eq]
  dsimp only
  rw [show (o = [] ∨ _) ↔ _ from ⟨fun h => h.resolve_left h0, .inr⟩]
  generalize optionName o = name
  generalize optionValues env.split o = values
  have key : ∀ w : Str, name = w → w ≠ "default".toList → w ≠ "defaults".toList →
      (Documented w values ↔ Documented name values ∨ ((name = "default".toList ∨ name = "defaults".toList)
        ∧ (values = ["yes".toList] ∨ ∀ v ∈ values, OneAddress env.parse v))) := by
    rintro w rfl h1 h2
    exact ⟨.inl, fun h => h.resolve_right fun h => h.1.elim h1 h2⟩
  by_cases h1 : name = "address".toList
  · rw [if_pos h1]
    exact logs_congr (logs_sets (sets_addressOption p hp values)) (key _ h1 (by decide) (by decide))
  rw [if_neg h1]
  by_cases h2 : name = "comment".toList
  · rw [if_pos h2]
    exact logs_congr (logs_sets (sets_commentOption p hp values)) (key _ h2 (by decide) (by decide))
  rw [if_neg h2]
  by_cases h3 : name = "default".toList ∨ name = "defaults".toList
  · rw [if_pos h3]
    refine logs_congr (logs_defaultOption hs h values p) ⟨fun h => .inr ⟨h3, h⟩, fun h => ?_⟩
    rcases h with h | h
    · exfalso
      rcases documented_name h with h | h | h | h <;> rcases h3 with h3 | h3 <;> exact absurd (h3.symm.trans h) (by decide)
    · exact h.2
  rw [if_neg h3]
  by_cases h4 : name = "mask".toList
  · rw [if_pos h4]
    exact logs_congr (logs_sets (sets_maskOption p hp values)) (key _ h4 (by decide) (by decide))
  rw [if_neg h4]
  by_cases h5 : name = "port".toList
  · rw [if_pos h5]
    exact logs_congr (logs_sets (sets_portOption p hp values)) (key _ h5 (by decide) (by decide))
  rw [if_neg h5]
  refine ⟨p, 1, rfl, ⟨(fun h => nomatch h), fun h => ?_⟩⟩
  rcases h with h | h
  · rcases documented_name h with h | h | h | h <;> contradiction
  · exact absurd h.1 h3

theorem logs_options {env : Env} (hs : SafeAnswers env.parse) (h : ReadsNumbers env.parse) (data : List Str) (p : Parser)
    (hp : p.config.flags .multiPortsCommas = false) :
    Logs p (options env data) (∀ o ∈ data, o = [] ∨ GoodOption env.parse env.split o) := by
  induction data generalizing p with
  | nil => exact ⟨p, 0, rfl, ⟨(fun _ _ h => nomatch h), fun _ => rfl⟩⟩
  | cons o l ih =>
    obtain ⟨q, n, h1, h2⟩ := logs_option hs h o p hp
    have hq : q.config.flags .multiPortsCommas = false := by
      have := (option_flags env o p hp).2
      rw [h1] at this
      rw [this, newFlags_ports]
      exact hp
    obtain ⟨r, m, h3, h4⟩ := ih q hq
    refine ⟨r, n + m, ?_, ?_⟩
    · rw [options, PM.bind_def, h1]
      dsimp only
      rw [PM.bind_def, h3]
      rfl
    · rw [Nat.add_eq_zero_iff, h2, h4]
      simp only [List.mem_cons, forall_eq_or_imp]

end Validator

end Verif
