import Verif.Lemmas.ParserMask
import Verif.Lemmas.ParserPost
import Verif.Props.AddrText

/-!
# Lemmas about the parser: reading what was printed
-/

namespace Verif.Parser

open Spec Inet

/-- A text which `inet_pton()` reads. -/
structure Readable (t : Str) (b : Bytes16) : Prop where
  nonempty : t ≠ []
  cstr : cstr t = t
  noDash : '-' ∉ t
  writes : Writes t b

/-- A parser which reads numbers only. -/
structure Numeric (p : Parser) : Prop where
  lookup : p.config.flags .addressLookup = false
  protocol : p.config.protocol = -1 ∨ p.config.protocol = IPPROTO_IP ∨ p.config.protocol = IPPROTO_TCP ∨ p.config.protocol = IPPROTO_UDP

/-- A range made of an address just read. -/
structure Fresh (r : Range) (t : Str) (b : Bytes16) (n : Nat) (d : Bool) : Prop where
  hasFrom : r.hasFrom = true
  hasTo : r.hasTo = false
  address : r.lo.address = { family := AF_INET6, port := swap16 (BitVec.ofNat 16 n), flowinfo := 0, scope := 0, addr := b }
  mask : r.lo.mask = Vector.replicate 16 0xFF
  hostname : r.lo.hostname = t
  portDefined : r.lo.portDefined = d
  other : r.hi = Addr.default

theorem makeRange_fresh {a : Addr} {t : Str} {protocol : Int} (d : Bool)
    (hp : protocol = -1 ∨ protocol = IPPROTO_IP ∨ protocol = IPPROTO_TCP ∨ protocol = IPPROTO_UDP) :
    ∃ r, makeRange (.ok a) t protocol d = .ok r ∧ r.hasFrom = true ∧ r.hasTo = false ∧ r.lo.address = a.address
      ∧ r.lo.mask = a.mask ∧ r.lo.hostname = t ∧ r.lo.portDefined = d ∧ r.hi = Addr.default := by
  rw [makeRange]
  simp only [Res.bind_ok]
  have h1 : onLocal (Addr.setHostname t) a = .ok { a with hostname := t } := rfl
  rw [h1]
  simp only [Res.bind_ok]
  by_cases h : protocol ≠ -1
  · rw [if_pos h]
    have hp := hp.resolve_left h
    have h2 : ∃ b, onLocal (Addr.setProtocol protocol) { a with hostname := t } = .ok b ∧ b.hostname = t ∧ b.address = a.address
        ∧ b.mask = a.mask := by
      rw [onLocal, Addr.setProtocol, if_pos hp]
      by_cases h3 : protocol ≠ ({ a with hostname := t } : Addr).protocol
      · rw [if_pos h3]; exact ⟨_, rfl, rfl, rfl, rfl⟩
      · rw [if_neg h3]; exact ⟨_, rfl, rfl, rfl, rfl⟩
    obtain ⟨b, h2, h3, h4, h5⟩ := h2
    rw [h2]
    exact ⟨_, rfl, rfl, rfl, h4, h5, h3, rfl, rfl⟩
  · rw [if_neg h]
    exact ⟨_, rfl, rfl, rfl, rfl, rfl, rfl, rfl, rfl⟩

section
variable {env : ParseEnv} {p : Parser} {t : Str} {b : Bytes16} {n : Nat}

theorem numericAddress_fresh (hp : Numeric p) (ht : Readable t b) (d : Bool) :
    ∃ r, numericAddress t n d [] p = (p, .ok [r]) ∧ Fresh r t b n d := by
  have hn : BitVec.ofInt 16 (n : Int) = BitVec.ofNat 16 n := BitVec.ofInt_natCast ..
  have key : ∀ (x : Addr), x.address = { family := AF_INET6, port := swap16 (BitVec.ofNat 16 n), flowinfo := 0, scope := 0, addr := b } →
      x.mask = Vector.replicate 16 0xFF →
      ∃ r, (PM.lift (makeRange (.ok x) t p.config.protocol d) >>= fun r => (Pure.pure ([] ++ [r]) : PM (List Range))) p = (p, .ok [r])
        ∧ Fresh r t b n d := by
    intro x h1 h2
    obtain ⟨r, h3, h4, h5, h6, h7, h8, h9, h10⟩ := makeRange_fresh (a := x) (t := t) d hp.protocol
    rw [h3]
    exact ⟨r, rfl, h4, h5, h6.trans h1, h7.trans h2, h8, h9, h10⟩
  rw [numericAddress, PM.config_bind, ht.cstr, hn]
  rcases ht.writes with ⟨b4, h1, h2⟩ | ⟨h1, h2⟩
  · rw [ht.cstr] at h1
    rw [h1]
    exact key _ (by rw [h2]; rfl) rfl
  · rw [ht.cstr] at h1 h2
    rw [h1, h2]
    exact key _ rfl rfl

/-- The text of the port and the number it denotes. -/
def PortGiven (env : ParseEnv) (c : Config) (q : Str) (n : Nat) : Prop :=
  (q ≠ [] ∧ env.convert q = some (n : Int) ∧ (c.flags .port = true ∨ c.flags .requiredPort = true))
    ∨ (q = [] ∧ c.flags .requiredPort = false
        ∧ ((c.defaultPort = -1 ∧ n = 0)
          ∨ (c.defaultPort ≠ -1 ∧ intStr c.defaultPort ≠ [] ∧ env.convert (intStr c.defaultPort) = some (n : Int) ∧ c.flags .port = true)))

theorem noLookup_port (hp : Numeric p) (ht : Readable t b) (hn : n ≤ 65535) (d : Bool) {q : Str} (hq : q ≠ [])
    (hc : env.convert q = some (n : Int)) (hf : p.config.flags .port = true ∨ p.config.flags .requiredPort = true) :
    ∃ r, noLookupAddress env t q d [] p = (p, .ok [r]) ∧ Fresh r t b n d := by
  have e : noLookupAddress env t q d [] p = numericAddress t n d [] p := by
    have e1 : noLookupAddress env t q d [] p =
        (if (p.config.flags .requiredPort || decide (q ≠ [])) = true then
          match env.convert q with
          | none => do
            emitError ("invalid port in \"".toList ++ q ++ "\" (no service name lookup allowed).".toList)
            return []
          | some n =>
            if n < 0 ∨ n > 65535 then do
              emitError ("invalid port in \"".toList ++ q ++ "\" (no service name lookup allowed).".toList)
              return []
            else if (!p.config.flags .port && !p.config.flags .requiredPort) = true then do
              emitError ("Found a port (\"".toList ++ q ++ "\") when it is not allowed.".toList)
              return []
            else numericAddress t n d []
        else numericAddress t 0 d [] : PM (List Range)) p := rfl
    rw [e1, if_pos (by rw [decide_eq_true hq, Bool.or_true]), hc]
    dsimp only
    rw [if_neg (by omega), if_neg]
    rcases hf with hf | hf <;> rw [hf] <;> simp
  rw [e]
  exact numericAddress_fresh hp ht d

theorem noLookup_noPort (hp : Numeric p) (ht : Readable t b) (d : Bool) (hr : p.config.flags .requiredPort = false) :
    ∃ r, noLookupAddress env t [] d [] p = (p, .ok [r]) ∧ Fresh r t b 0 d := by
  have e : noLookupAddress env t [] d [] p = numericAddress t 0 d [] p := by
    have e1 : noLookupAddress env t [] d [] p =
        (if (p.config.flags .requiredPort || decide (([] : Str) ≠ [])) = true then
          match env.convert [] with
          | none => do
            emitError ("invalid port in \"".toList ++ [] ++ "\" (no service name lookup allowed).".toList)
            return []
          | some n =>
            if n < 0 ∨ n > 65535 then do
              emitError ("invalid port in \"".toList ++ [] ++ "\" (no service name lookup allowed).".toList)
              return []
            else if (!p.config.flags .port && !p.config.flags .requiredPort) = true then do
              emitError ("Found a port (\"".toList ++ [] ++ "\") when it is not allowed.".toList)
              return []
            else numericAddress t n d []
        else numericAddress t 0 d [] : PM (List Range)) p := rfl
    rw [e1, hr, if_neg (by decide)]
  rw [e]
  exact numericAddress_fresh hp ht d

theorem parseAddressPort_fresh (hp : Numeric p) (ht : Readable t b) (hn : n ≤ 65535) {q : Str}
    (hq : PortGiven env p.config q n) (v6 : Bool) :
    ∃ r, parseAddressPort env t q [] v6 p = (p, .ok [r]) ∧ Fresh r t b n (decide (q ≠ [])) := by
  have e : parseAddressPort env t q [] v6 p
      = noLookupAddress env t (if (!decide (q ≠ []) && decide (p.config.defaultPort ≠ -1)) = true then intStr p.config.defaultPort else q)
          (decide (q ≠ [])) [] p := by
    rw [parseAddressPort, PM.config_bind]
    dsimp only
    rw [if_neg, if_neg, if_neg ht.nonempty, hp.lookup, if_neg Bool.false_ne_true]
    · rw [decide_eq_false ht.nonempty]; simp
    · rcases hq with hq | hq
      · rw [decide_eq_true hq.1]; simp
      · rw [hq.2.1]; simp
  rw [e]
  rcases hq with ⟨h1, h2, h3⟩ | ⟨h1, h2, ⟨h3, h4⟩ | ⟨h3, h4, h5, h6⟩⟩
  · rw [if_neg (by rw [decide_eq_true h1]; simp)]
    exact noLookup_port hp ht hn _ h1 h2 h3
  · rw [if_neg (by rw [h3]; simp), h1, h4]
    exact noLookup_noPort hp ht _ h2
  · rw [if_pos (by rw [h1]; simp [h3])]
    exact noLookup_port hp ht hn _ h4 h5 (.inl h6)

/-- A port is written only where ports are allowed. -/
def PortOk (c : Config) (q : Str) : Prop := q = [] ∨ c.flags .port = true ∨ c.flags .requiredPort = true

theorem PortGiven.ok {c : Config} {q : Str} (h : PortGiven env c q n) : PortOk c q := by
  rcases h with ⟨_, _, h⟩ | ⟨h, _⟩
  · exact .inr h
  · exact .inl h

theorem parseAddressRangePort_written (hdash : '-' ∉ t) (q : Str) (v6 : Bool) :
    parseAddressRangePort env t q [] v6 p = parseAddressPort env t q [] v6 p := by
  have e : (if p.config.flags .addressRange = true then splitFirst '-' t else none) = none := by
    split
    · exact splitFirst_none.2 hdash
    · rfl
  rw [parseAddressRangePort, PM.config_bind, e]

/-- The entry `t` or `t:q`. -/
def withPort (t q : Str) : Str := if q = [] then t else t ++ ':' :: q

theorem parseAddress4_written (hdash : '-' ∉ t) {q : Str} (hq : PortOk p.config q) (hcolon : ':' ∉ t) :
    parseAddress4 env (withPort t q) [] p = parseAddressPort env t q [] false p := by
  rw [parseAddress4, PM.config_bind]
  by_cases h : q = []
  · subst h
    rw [withPort, if_pos rfl, splitFirst_none.2 hcolon]
    exact parseAddressRangePort_written hdash _ _
  · rw [withPort, if_neg h, splitFirst_append hcolon]
    dsimp only
    have hf : (p.config.flags .port || p.config.flags .requiredPort) = true := by
      rcases hq with h1 | h3 | h3
      · exact absurd h1 h
      · rw [h3]; rfl
      · rw [h3, Bool.or_true]
    rw [if_pos hf]
    exact parseAddressRangePort_written hdash _ _

theorem parseAddress6_bare (hdash : '-' ∉ t) (hhead : t.head? ≠ some '[') {k : Nat} (hk : k ≠ 1) :
    parseAddress6 env t k [] p = parseAddressPort env t [] [] true p := by
  rw [parseAddress6, PM.config_bind, if_neg hhead, if_neg hk]
  exact parseAddressRangePort_written hdash _ _

theorem parseAddress6_bracket (hdash : '-' ∉ t) {q : Str} (hq : PortOk p.config q) (hno : ']' ∉ t) (k : Nat) :
    parseAddress6 env (withPort ('[' :: t ++ [']']) q) k [] p = parseAddressPort env t q [] true p := by
  rw [parseAddress6, PM.config_bind]
  by_cases h : q = []
  · subst h
    rw [withPort, if_pos rfl, if_pos (show ('[' :: t ++ [']']).head? = some '[' from rfl)]
    have e : splitFirst ']' (('[' :: t ++ [']']).drop 1) = some (t, []) := splitFirst_append hno
    rw [e]
    exact parseAddressRangePort_written hdash _ _
  · rw [withPort, if_neg h, if_pos (show ('[' :: t ++ [']'] ++ ':' :: q).head? = some '[' from rfl)]
    have e : splitFirst ']' (('[' :: t ++ [']'] ++ ':' :: q).drop 1) = some (t, ':' :: q) := by
      have : ('[' :: t ++ [']'] ++ ':' :: q).drop 1 = t ++ ']' :: ':' :: q := by simp
      rw [this]
      exact splitFirst_append hno
    rw [e]
    have hf : ¬ (!p.config.flags .port && !p.config.flags .requiredPort) = true := by
      rcases hq with h1 | h3 | h3
      · exact absurd h1 h
      · rw [h3]; simp
      · rw [h3]; simp
    have e2 : ∀ x y z : PM (List Range), (if ':' ≠ ':' then x else
        if (!p.config.flags .port && !p.config.flags .requiredPort) = true then y else z) = z := fun x y z => by
      rw [if_neg (not_not_intro rfl), if_neg hf]
    refine (congrArg (fun m : PM (List Range) => m p = parseAddressPort env t q [] true p) (e2 _ _ _)).mpr ?_
    exact parseAddressRangePort_written hdash _ _

end

/-! ### The entries which are printed -/

/-- The characters of a printed address. -/
def addressChars : Str := "0123456789abcdef:.".toList

/-- The characters of a printed number. -/
def digitChars : Str := "0123456789".toList

/-- The entry `e` made of the address `t` and the port `q`. -/
inductive Printed : (e t q : Str) → Prop
  | v4 {t q : Str} (h : ':' ∉ t) : Printed (withPort t q) t q
  | bare {t : Str} (h : 2 ≤ t.count ':') : Printed t t []
  | bracket {t q : Str} (h : 2 ≤ t.count ':') : Printed (withPort ('[' :: t ++ [']']) q) t q

section
variable {env : ParseEnv} {p : Parser} {t : Str} {b : Bytes16} {n : Nat}

theorem withPort_chars {x q : Str} {c : Char} (h : c ∈ withPort x q) : c ∈ x ∨ c = ':' ∨ c ∈ q := by
  unfold withPort at h
  split at h
  · exact .inl h
  · simpa using h

theorem printed_chars {e q : Str} (he : Printed e t q) (ht : ∀ c ∈ t, c ∈ addressChars) (hq : ∀ c ∈ q, c ∈ digitChars) :
    ∀ c ∈ e, c ∈ "0123456789abcdef:.[]".toList := by
  have h1 : ∀ c ∈ addressChars, c ∈ "0123456789abcdef:.[]".toList := by decide
  have h2 : ∀ c ∈ digitChars, c ∈ "0123456789abcdef:.[]".toList := by decide
  intro c hc
  cases he with
  | v4 h =>
    rcases withPort_chars hc with h | rfl | h
    · exact h1 c (ht c h)
    · decide
    · exact h2 c (hq c h)
  | bare h => exact h1 c (ht c hc)
  | bracket h =>
    rcases withPort_chars hc with h | rfl | h
    · simp only [List.cons_append, List.mem_cons, List.mem_append, List.not_mem_nil, or_false] at h
      rcases h with rfl | h | rfl
      · decide
      · exact h1 c (ht c h)
      · decide
    · decide
    · exact h2 c (hq c h)

theorem count_withPort (x q : Str) : x.count ':' ≤ (withPort x q).count ':' := by
  unfold withPort
  split
  · exact Nat.le_refl _
  · rw [List.count_append]; omega

theorem parseAddress_written (env : ParseEnv) {e q : Str} (he : Printed e t q) (hne : t ≠ [])
    (hc : ∀ c ∈ t, c ∈ addressChars) (hd : ∀ c ∈ q, c ∈ digitChars) (hq : PortOk p.config q) (m : Str) :
    (e ≠ [] ∧ (2 ≤ e.count ':' ∨ e.head? ≠ some ':')) ∧
    (∃ v6, parseAddress env e m [] p
      = (parseAddressPort env t q [] v6 >>= fun l => (Pure.pure (asIpv4 p.config e, l) : PM (Bool × List Range))) p)
      ∧ (asIpv4 p.config e = true ↔ ':' ∉ t) := by
  have hno : ∀ c, c ∉ addressChars → c ∉ t := fun c h h' => h (hc c h')
  have hdno : ∀ c, c ∉ digitChars → c ∉ q := fun c h h' => h (hd c h')
  have hdash := hno '-' (by decide)
  have key : ∀ (w : PM (List Range)), (e ≠ [] ∧ (2 ≤ e.count ':' ∨ e.head? ≠ some ':')) →
      (if asIpv4 p.config e then parseAddress4 env e [] else parseAddress6 env e (e.count ':') []) = w →
      (∃ v6, w p = parseAddressPort env t q [] v6 p) → (asIpv4 p.config e = true ↔ ':' ∉ t) →
      (e ≠ [] ∧ (2 ≤ e.count ':' ∨ e.head? ≠ some ':')) ∧
      (∃ v6, parseAddress env e m [] p
        = (parseAddressPort env t q [] v6 >>= fun l => (Pure.pure (asIpv4 p.config e, l) : PM (Bool × List Range))) p)
      ∧ (asIpv4 p.config e = true ↔ ':' ∉ t) := by
    rintro w h hw ⟨v6, h1⟩ h3
    refine ⟨h, ⟨v6, ?_⟩, h3⟩
    rw [parseAddress_eq env e m [] p h, hw, PM.bind_def, PM.bind_def, h1]
  cases he with
  | v4 h =>
    have hhead : (withPort t q).head? = t.head? := by
      unfold withPort
      cases t with
      | nil => exact absurd rfl hne
      | cons x l => split <;> rfl
    have hx : ∀ c, c ∉ addressChars → t.head? ≠ some c := fun c h h' => hno c h (List.mem_of_head? h')
    have hcount : (withPort t q).count ':' < 2 := by
      have h0 := List.count_eq_zero.2 h
      have h1 := List.count_eq_zero.2 (hdno ':' (by decide))
      unfold withPort
      split
      · omega
      · rw [List.count_append, List.count_cons, h0, h1]; simp
    have hasv : asIpv4 p.config (withPort t q) = true := by
      rw [asIpv4, if_neg (by omega), if_neg]
      · by_cases hf : (!p.config.flags .port && !p.config.flags .requiredPort) = true
        · rw [if_pos hf]
          have hq0 : q = [] := by
            rcases hq with h1 | h3
            · exact h1
            · rcases h3 with h3 | h3 <;> rw [h3] at hf <;> simp at hf
          rw [withPort, if_pos hq0, splitFirst_none.2 h]
        · rw [if_neg hf]
      · rintro (h' | h')
        · rw [hhead] at h'
          exact hx _ (by decide) h'
        · rcases withPort_chars h' with h' | h' | h'
          · exact hno _ (by decide) h'
          · exact absurd h' (by decide)
          · exact hdno _ (by decide) h'
    refine key (parseAddress4 env (withPort t q) []) ⟨?_, .inr ?_⟩ (by rw [hasv, if_pos rfl])
      ⟨false, parseAddress4_written hdash hq h⟩ ⟨fun _ => h, fun _ => hasv⟩
    · intro h'
      rw [h'] at hhead
      cases t with
      | nil => exact hne rfl
      | cons x l => cases hhead
    · rw [hhead]
      intro h'
      exact h (List.mem_of_head? h')
  | bare h =>
    have hasv : asIpv4 p.config t = false := by rw [asIpv4, if_pos h]
    refine key (parseAddress6 env t (t.count ':') []) ⟨hne, .inl h⟩ (by rw [hasv, if_neg Bool.false_ne_true])
      ⟨true, parseAddress6_bare hdash (fun h' => hno _ (by decide) (List.mem_of_head? h')) (by omega)⟩ ?_
    rw [hasv]
    exact ⟨(fun h => nomatch h), fun h' => by rw [List.count_eq_zero.2 h'] at h; omega⟩
  | bracket h =>
    have hcount : 2 ≤ (withPort ('[' :: t ++ [']']) q).count ':' := by
      refine Nat.le_trans ?_ (count_withPort _ _)
      rw [List.count_append, List.count_cons]
      omega
    have hasv : asIpv4 p.config (withPort ('[' :: t ++ [']']) q) = false := by rw [asIpv4, if_pos hcount]
    refine key (parseAddress6 env _ _ []) ⟨?_, .inl hcount⟩ (by rw [hasv, if_neg Bool.false_ne_true])
      ⟨true, parseAddress6_bracket hdash hq (hno _ (by decide)) _⟩ ?_
    · intro h'
      rw [h'] at hcount
      simp at hcount
    · rw [hasv]
      exact ⟨(fun h => nomatch h), fun h' => by rw [List.count_eq_zero.2 h'] at h; omega⟩

theorem parseAddress_printed {e q : Str} (he : Printed e t q) (hp : Numeric p) (ht : Readable t b)
    (hc : ∀ c ∈ t, c ∈ addressChars) (hd : ∀ c ∈ q, c ∈ digitChars) (hn : n ≤ 65535) (hq : PortGiven env p.config q n)
    (m : Str) :
    (e ≠ [] ∧ (2 ≤ e.count ':' ∨ e.head? ≠ some ':')) ∧
    ∃ r, parseAddress env e m [] p = (p, .ok (asIpv4 p.config e, [r])) ∧ Fresh r t b n (decide (q ≠ []))
      ∧ (asIpv4 p.config e = true ↔ ':' ∉ t) := by
  obtain ⟨h, ⟨v6, h1⟩, h2⟩ := parseAddress_written env he ht.nonempty hc hd hq.ok m
  obtain ⟨r, h3, h4⟩ := parseAddressPort_fresh hp ht hn hq v6
  exact ⟨h, r, by rw [h1, PM.bind_of_ok h3]; rfl, h4, h2⟩

end

/-! ### The texts of the addresses -/

theorem pton4Loop_alien (c : Char) (hc : decVal c = none) (hd : c ≠ '.') : ∀ (s : Str) (done : List Byte) (cur : Nat) (saw : Bool)
    (octets : Nat), c ∈ s → pton4Loop s done cur saw octets = none
  | [], _, _, _, _, h => nomatch h
  | x :: s, done, cur, saw, octets, h => by
    rw [pton4Loop]
    rcases List.mem_cons.1 h with rfl | h
    · rw [hc]
      simp [hd]
    · cases hx : decVal x with
      | some d =>
        dsimp only
        repeat' split
        all_goals first | rfl | exact pton4Loop_alien c hc hd s _ _ _ _ h
      | none =>
        dsimp only
        repeat' split
        all_goals first | rfl | exact pton4Loop_alien c hc hd s _ _ _ _ h

theorem pton4_colon {s : Str} (h : ':' ∈ s) : pton4 s = none := by
  rw [pton4, pton4Loop_alien ':' (by decide) (by decide) s _ _ _ _ h]

theorem text6_colons {v : Nat} {s : Str} (h : Text6 v s) : 2 ≤ s.count ':' := by
  cases h with
  | full _ =>
    have : ∀ a b c d e f g h : Nat, 2 ≤ (colonHex [a, b, c, d, e, f, g, h]).count ':' := by
      intro a b c d e f g h
      simp only [colonHex, List.map_cons, List.map_nil, List.intercalate, List.intersperse, List.flatten_cons, List.count_append]
      simp
      omega
    exact this _ _ _ _ _ _ _ _
  | zip pre post z hz h _ _ _ =>
    rw [List.count_append, List.count_append, show "::".toList.count ':' = 2 by decide]
    omega
  | compat h => rw [List.count_append, show "::".toList.count ':' = 2 by decide]; omega
  | mapped h => rw [List.count_append, show "::ffff:".toList.count ':' = 3 by decide]; omega

theorem cstr_chars {t : Str} (h : ∀ c ∈ t, c ∈ addressChars) : Verif.cstr t = t := by
  have := List.takeWhile_append_of_pos (p := fun x : Char => decide (x ≠ '\x00')) (l₁ := t) (l₂ := []) fun c hc => by
    rw [decide_eq_true_eq]
    rintro rfl
    exact absurd (h _ hc) (by decide)
  simpa [Verif.cstr] using this

theorem readable_v4 {b : Bytes16} (h : isV4 (ip b)) :
    Readable (ntop4 (last4 b)) b ∧ (∀ c ∈ ntop4 (last4 b), c ∈ addressChars) ∧ ':' ∉ ntop4 (last4 b) := by
  have hc : ∀ c ∈ ntop4 (last4 b), c ∈ addressChars := fun c hc =>
    (by decide : ∀ c ∈ "0123456789.".toList, c ∈ addressChars) c (ntop4_chars _ c hc)
  refine ⟨⟨?_, cstr_chars hc, ?_, .inl ⟨last4 b, ?_, ?_⟩⟩, hc, ?_⟩
  · intro h0
    have := pton4_ntop4 (last4 b)
    rw [h0] at this
    exact absurd this (by simp [pton4, pton4Loop])
  · exact fun h => absurd (hc _ h) (by decide)
  · rw [cstr_chars hc, pton4_ntop4]
  · refine last4_inj h ?_ rfl
    exact mapped_v4 (x := b[12].toNat * 256 + b[13].toNat) (y := b[14].toNat * 256 + b[15].toNat) (by simp [words, mapped, last4, List.replicate])
  · exact fun h => absurd (ntop4_chars _ _ h) (by decide)

theorem readable_v6 {t : Str} {b : Bytes16} (h : Text6 (ip b) t) (hp : pton6 t = some b) (hc : ∀ c ∈ t, c ∈ addressChars) :
    Readable t b := by
  have h2 := text6_colons h
  have hm : ':' ∈ t := Decidable.byContradiction fun h' => by rw [List.count_eq_zero.2 h'] at h2; omega
  refine ⟨?_, cstr_chars hc, fun h => absurd (hc _ h) (by decide), .inr ⟨?_, ?_⟩⟩
  · rintro rfl; cases hm
  · rw [cstr_chars hc, pton4_colon hm]
  · rw [cstr_chars hc, hp]

end Verif.Parser
