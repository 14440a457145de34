import Verif.Props.MaskText
import Verif.Props.ParserPrint
import Verif.Props.ParserProtocol

/-!
# Property C94: masks which are written as addresses
-/

namespace Verif

open Spec

/-! ### Specification -/

/-- A parser of one entry with a mask which may be an address, without lookups. -/
structure ReadsAnyMask (p : Parser) (inp : Str) : Prop where
  lookup : p.config.flags .addressLookup = false
  mask : p.config.flags .mask = true
  addressMask : p.config.flags .addressMask = true
  range : p.config.flags .addressRange = false ∨ '-' ∉ inp
  protocol : p.config.protocol = -1 ∨ p.config.protocol = IPPROTO_IP ∨ p.config.protocol = IPPROTO_TCP ∨ p.config.protocol = IPPROTO_UDP
  one : OneEntry p inp
  sort : Unsorted p

/-- The mask which goes with the entry `e`: the one written, or else the default mask of the parser for an address of this kind (the
default mask of IPv6 only counts if it is an address). -/
def maskInEffect (p : Parser) (e m : Str) : Str :=
  if m ≠ [] then m
  else if entryBits e = 32 then p.config.defaultMask4
  else if ':' ∈ p.config.defaultMask6 then '[' :: p.config.defaultMask6 ++ [']']
  else []

/-- What `getaddrinfo()` answers about the numeric address of a mask, for the port and the protocol of the address it goes with. -/
def maskAnswer (env : ParseEnv) (p : Parser) (port : Nat) (x : Str) : GaiAnswer :=
  env.getaddrinfo x (dec port) true (if p.config.protocol = -1 then IPPROTO_TCP else p.config.protocol)

/-- Not the number of a mask: something which is not a digit comes, after a number which is at most 10000. -/
def AddressLike (m : Str) : Prop :=
  ∃ ds x rest, m = ds ++ x :: rest ∧ (∀ c ∈ ds, c.isDigit = true) ∧ x.isDigit = false ∧ Nat.ofDigitChars 10 ds 0 ≤ 10000

/-- The mask `m` of the entry `e`, whose port is `port`, has this value. -/
inductive WritesMask (env : ParseEnv) (p : Parser) (e : Str) (port : Nat) : (m : Str) → (value : Nat) → Prop
  /-- No mask: all the bits count. -/
  | none : WritesMask env p e port [] (2 ^ 128 - 1)
  /-- The number of the bits which count. -/
  | bits {m : Str} (hne : m ≠ []) (hd : ∀ c ∈ m, c.isDigit = true) (hk : Nat.ofDigitChars 10 m 0 ≤ entryBits e) :
      WritesMask env p e port m (prefixMask (128 - entryBits e + Nat.ofDigitChars 10 m 0))
  /-- The mask of an IPv4 address: the four bytes of an IPv4 address. -/
  | four {m : Str} {pr : Int} {sa : SockaddrIn} {l : List AddrInfo} (he : entryBits e = 32) (hm : AddressLike m) (hb : m.head? ≠ some '[')
      (ha : maskAnswer env p port m = .list (.inet sizeofIn pr sa :: l)) : WritesMask env p e port m ((2 ^ 96 - 1) * 2 ^ 32 + ip4 sa.addr)
  /-- The mask of an IPv6 address: an IPv6 address in brackets. -/
  | six {x : Str} {pr : Int} {sa : SockaddrIn6} {l : List AddrInfo} (he : entryBits e = 128) (hne : x ≠ [])
      (ha : maskAnswer env p port x = .list (.inet6 sizeofIn6 pr sa :: l)) : WritesMask env p e port ('[' :: x ++ [']']) (ip sa.addr)
  /-- Brackets without an address: all the bits count. -/
  | brackets (he : entryBits e = 128) : WritesMask env p e port "[]".toList (2 ^ 128 - 1)

/-- `getaddrinfo()` does not succeed with an empty list. -/
def SomeAnswers (env : ParseEnv) : Prop := ∀ node service numeric hint, env.getaddrinfo node service numeric hint ≠ .list []

/-! ### Lemmas -/

namespace Parser

theorem decVal_not {c : Char} (h : c.isDigit = false) : Inet.decVal c = none := by
  cases hd : Inet.decVal c with
  | none => rfl
  | some d => rw [decVal_digit hd] at h; cases h

theorem scanDigits_notNumber {limit : Nat} : ∀ {t : Str} {acc : Nat}, acc ≤ limit →
    (scanDigits limit t acc = .notNumber ↔
      ∃ ds x rest, t = ds ++ x :: rest ∧ (∀ c ∈ ds, c.isDigit = true) ∧ x.isDigit = false ∧ Nat.ofDigitChars 10 ds acc ≤ limit)
  | [], acc, _ => by
    rw [scanDigits]
    constructor
    · exact fun h => nomatch h
    · rintro ⟨ds, x, rest, h, _⟩
      cases ds <;> cases h
  | c :: t, acc, hacc => by
    rw [scanDigits]
    cases hc : c.isDigit with
    | false =>
      rw [decVal_not hc]
      exact ⟨fun _ => ⟨[], c, t, rfl, (fun _ h => nomatch h), hc, by simpa using hacc⟩, fun _ => rfl⟩
    | true =>
      rw [decVal_isDigit c hc]
      dsimp only
      have back : (∃ ds x rest, c :: t = ds ++ x :: rest ∧ (∀ c ∈ ds, c.isDigit = true) ∧ x.isDigit = false ∧ Nat.ofDigitChars 10 ds acc ≤ limit)
          ↔ ∃ ds x rest, t = ds ++ x :: rest ∧ (∀ c ∈ ds, c.isDigit = true) ∧ x.isDigit = false
            ∧ Nat.ofDigitChars 10 ds (acc * 10 + (c.toNat - '0'.toNat)) ≤ limit := by
        constructor
        · rintro ⟨ds, x, rest, h1, h2, h3, h4⟩
          cases ds with
          | nil =>
            cases h1
            rw [hc] at h3
            cases h3
          | cons d ds =>
            cases h1
            rw [Nat.ofDigitChars_cons, Nat.mul_comm 10 acc] at h4
            exact ⟨ds, x, rest, rfl, fun y hy => h2 y (List.mem_cons_of_mem _ hy), h3, h4⟩
        · rintro ⟨ds, x, rest, rfl, h2, h3, h4⟩
          refine ⟨c :: ds, x, rest, rfl, fun y hy => ?_, h3, ?_⟩
          · rcases List.mem_cons.1 hy with rfl | hy
            · exact hc
            · exact h2 y hy
          · rw [Nat.ofDigitChars_cons, Nat.mul_comm 10 acc]
            exact h4
      rw [back]
      by_cases hl : acc * 10 + (c.toNat - '0'.toNat) > limit
      · rw [if_pos hl]
        constructor
        · exact fun h => nomatch h
        · rintro ⟨ds, _, _, _, _, _, h4⟩
          have := le_ofDigitChars ds (acc * 10 + (c.toNat - '0'.toNat))
          omega
      · rw [if_neg hl]
        exact scanDigits_notNumber (by omega)

theorem ip_mask4 (b : Bytes4) : ip (mask4 b) = (2 ^ 96 - 1) * 2 ^ 32 + ip4 b := by
  show value [255, 255, 255, 255, 255, 255, 255, 255, 255, 255, 255, 255, b[0], b[1], b[2], b[3]] = _ + value b.toList
  rw [Inet.bytes4_list]
  simp only [value_cons, value_nil, List.length_cons, List.length_nil]
  have h1 : (255 : Byte).toNat = 255 := rfl
  rw [h1]
  omega

/-- The address read is given a mask, and nothing else of it changes. -/
structure Masked (a b : Addr) (v : Nat) : Prop where
  mask : ip b.getMask = v
  address : b.address = a.address
  hostname : b.hostname = a.hostname
  portDefined : b.portDefined = a.portDefined

section
variable {env : ParseEnv} {p : Parser} {a : Addr} {v4 : Bool} {e : Str} {port : Nat}

theorem parseMask_writes (hf : p.config.flags .addressMask = true) (hmask : a.mask = Vector.replicate 16 0xFF) (hport : a.getPort = port)
    (hproto : a.protocol = if p.config.protocol = -1 then 6 else p.config.protocol)
    (hknown : KnownProtocol p.config.protocol) (hlimit : maskLimit v4 = entryBits e) {m : Str} {v : Nat} (hnul : '\x00' ∉ m)
    (h : WritesMask env p e port m v) : ∃ b, parseMask env m a v4 p = (p, .ok b) ∧ Masked a b v := by
  have hfull : ip a.getMask = 2 ^ 128 - 1 := by rw [Addr.getMask, hmask]; decide
  have hc : cstr m = m := cstr_noNul fun c hc e => hnul (e ▸ hc)
  have hask (x : Str) : env.getaddrinfo x (Inet.decStr a.getPort) true (hintProtocol a.protocol) = maskAnswer env p port x := by
    rw [maskAnswer, hport, decStr_dec, hproto]
    congr 1
    rcases hknown with h | h | h | h <;> rw [h] <;> decide
  cases h with
  | none => exact ⟨a, by rw [parseMask, if_pos rfl]; rfl, hfull, rfl, rfl, rfl⟩
  | bits hne hd hk =>
    refine ⟨withMask v4 (Nat.ofDigitChars 10 m 0) a, by rw [(parseMask_number env m hne hd a v4).1 (by rw [hlimit]; exact hk)]; rfl, ?_, rfl, rfl, rfl⟩
    have : entryBits e ≤ 128 := by rw [entryBits]; split <;> omega
    show ip (prefixBytes _) = _
    rw [hlimit, ip_prefixBytes _ (by omega), Nat.add_comm]
  | @four _ pr sa l he hm hb ha =>
    have hv : v4 = true := by
      cases v4 with
      | true => rfl
      | false => rw [he] at hlimit; exact absurd hlimit (by decide)
    have hne : m ≠ [] := by
      rintro rfl
      obtain ⟨ds, x, rest, h1, _⟩ := hm
      cases ds <;> cases h1
    have hadd : addressMask env m a true p = (p, .ok (some (mask4 sa.addr))) := by
      rw [addressMask, PM.config_bind, hf]
      simp only [Bool.not_true, Bool.false_eq_true, if_false, Bool.true_and, Bool.false_and, hb, decide_false, if_true, hc, hask, ha]
      rfl
    refine ⟨{ a with maskDefined := true, mask := mask4 sa.addr }, ?_, ip_mask4 _, rfl, rfl, rfl⟩
    rw [hv, parseMask, if_neg hne, hc, (scanDigits_notNumber (by omega)).2 hm]
    simp only [PM.bind_def, hadd]
    rfl
  | @six x pr sa l he hne ha =>
    have hv : v4 = false := by
      cases v4 with
      | false => rfl
      | true => rw [he] at hlimit; exact absurd hlimit (by decide)
    have hx : cstr x = x := cstr_noNul fun c hc e => hnul (e ▸ (by simp [hc]))
    have hadd : addressMask env ('[' :: x ++ [']']) a false p = (p, .ok (some sa.addr)) := by
      rw [addressMask, PM.config_bind, hf]
      have hh : ('[' :: x ++ [']']).head? = some '[' := rfl
      have hl : ('[' :: x ++ [']']).getLast? = some ']' := by rw [List.getLast?_append]; rfl
      have hd : (('[' :: x ++ [']']).drop 1).dropLast = x := by simp
      rw [hh, hl, hd]
      simp only [Bool.not_true, Bool.not_false, Bool.false_eq_true, if_false, Bool.false_and, Bool.true_and, ne_eq, not_true_eq_false,
        decide_false, hne, hx, hask, ha]
      rfl
    refine ⟨{ a with maskDefined := true, mask := sa.addr }, ?_, rfl, rfl, rfl, rfl⟩
    rw [hv, parseMask, if_neg (by simp), hc, show scanDigits 10000 ('[' :: x ++ [']']) 0 = .notNumber from rfl]
    simp only [PM.bind_def, hadd]
    rfl
  | brackets he =>
    have hv : v4 = false := by
      cases v4 with
      | false => rfl
      | true => rw [he] at hlimit; exact absurd hlimit (by decide)
    refine ⟨a, ?_, hfull, rfl, rfl, rfl⟩
    have hadd : addressMask env "[]".toList a false p = (p, .ok none) := by
      rw [addressMask, PM.config_bind, hf]
      rfl
    rw [hv, parseMask, if_neg (by decide), show scanDigits 10000 (cstr "[]".toList) 0 = .notNumber by decide]
    simp only [PM.bind_def, hadd]
    rfl

theorem bracket_split {m : Str} (h1 : m.head? = some '[') (h2 : m.getLast? = some ']') : ∃ x, m = '[' :: x ++ [']'] := by
  cases m with
  | nil => cases h1
  | cons c t =>
    cases h1
    cases t with
    | nil => exact absurd h2 (by decide)
    | cons y t =>
      rw [List.getLast?_cons_cons] at h2
      obtain ⟨ys, hy⟩ := List.getLast?_eq_some_iff.1 h2
      exact ⟨ys, by rw [hy]; rfl⟩

theorem emit_none (msg : Str) : ∃ m, (emitError msg >>= fun _ => (Pure.pure none : PM (Option Bytes16))) p = (emitAll [m] p, .ok none) :=
  ⟨msg, by rw [PM.bind_of_ok (emitError_apply msg p)]; rfl⟩

theorem parseMask_refused (hf : p.config.flags .addressMask = true) (hport : a.getPort = port)
    (hproto : a.protocol = if p.config.protocol = -1 then 6 else p.config.protocol)
    (hknown : KnownProtocol p.config.protocol) (hlimit : maskLimit v4 = entryBits e) {m : Str} (hnul : '\x00' ∉ m)
    (henv : SomeAnswers env) (h : ¬ ∃ v, WritesMask env p e port m v) : ∃ msg, parseMask env m a v4 p = (emitAll [msg] p, .ok a) := by
  have hne : m ≠ [] := by
    rintro rfl
    exact h ⟨_, .none⟩
  have hc : cstr m = m := cstr_noNul fun c hc e => hnul (e ▸ hc)
  have hask (x : Str) : env.getaddrinfo x (Inet.decStr a.getPort) true (hintProtocol a.protocol) = maskAnswer env p port x := by
    rw [maskAnswer, hport, decStr_dec, hproto]
    congr 1
    rcases hknown with h | h | h | h <;> rw [h] <;> decide
  by_cases hd : ∀ c ∈ m, c.isDigit = true
  · obtain ⟨msg, hm⟩ := (parseMask_number env m hne hd a v4).2 (Nat.lt_of_not_le fun hle => h ⟨_, .bits hne hd (by rw [← hlimit]; exact hle)⟩)
    refine ⟨msg, ?_⟩
    rw [hm, PM.bind_of_ok (emitError_apply msg p)]
    rfl
  · rw [parseMask, if_neg hne, hc]
    cases hs : scanDigits 10000 m 0 with
    | number n => exact absurd (scanDigits_number hs) hd
    | tooLarge =>
      refine ⟨"Mask size too large (".toList ++ m ++ ", expected a maximum of 128).".toList, ?_⟩
      dsimp only
      rw [PM.bind_of_ok (emitError_apply _ p)]
      rfl
    | notNumber =>
      have hlike : AddressLike m := (scanDigits_notNumber (by omega)).1 hs
      dsimp only
      have hadd : ∃ msg, addressMask env m a v4 p = (emitAll [msg] p, .ok none) := by
        rw [addressMask, PM.config_bind, hf]
        cases v4 with
        | true =>
          have he : entryBits e = 32 := hlimit.symm
          by_cases hb : m.head? = some '['
          · rw [hb]
            exact emit_none _
          · simp only [Bool.not_true, Bool.false_eq_true, if_false, Bool.true_and, Bool.false_and, hb, decide_false, if_true, hc, hask]
            cases ha : maskAnswer env p port m with
            | error r n => exact emit_none _
            | list l =>
              cases l with
              | nil => exact absurd ha (henv _ _ _ _)
              | cons x l =>
                cases x with
                | inet len pr sa =>
                  dsimp only
                  by_cases hlen : len = sizeofIn
                  · rw [hlen] at ha
                    exact absurd ⟨_, .four he hlike hb ha⟩ h
                  · rw [if_pos hlen]
                    exact emit_none _
                | inet6 len pr sa => exact emit_none _
                | other f => exact emit_none _
        | false =>
          have he : entryBits e = 128 := hlimit.symm
          by_cases hb : m.head? = some '['
          · by_cases hl : m.getLast? = some ']'
            · obtain ⟨x, rfl⟩ := bracket_split hb hl
              have hd : (('[' :: x ++ [']']).drop 1).dropLast = x := by simp
              have hx : cstr x = x := cstr_noNul fun c hc e => hnul (e ▸ (by simp [hc]))
              have hxe : x ≠ [] := by
                rintro rfl
                exact h ⟨_, .brackets he⟩
              rw [hb, hl, hd]
              simp only [Bool.not_true, Bool.not_false, Bool.false_eq_true, if_false, Bool.false_and, Bool.true_and, ne_eq, not_true_eq_false,
                decide_false, hxe, hx, hask]
              cases ha : maskAnswer env p port x with
              | error r n => exact emit_none _
              | list l =>
                cases l with
                | nil => exact absurd ha (henv _ _ _ _)
                | cons y l =>
                  cases y with
                  | inet len pr sa => exact emit_none _
                  | inet6 len pr sa =>
                    dsimp only
                    by_cases hlen : len = sizeofIn6
                    · rw [hlen] at ha
                      exact absurd ⟨_, .six he hxe ha⟩ h
                    · simp only [Bool.false_eq_true, if_false, hlen, not_false_eq_true, if_true]
                      exact emit_none _
                  | other f => exact emit_none _
            · rw [hb]
              simp only [Bool.not_true, Bool.not_false, Bool.false_eq_true, if_false, Bool.false_and, Bool.true_and, ne_eq, not_true_eq_false,
                decide_false, hl, not_false_eq_true, decide_true, if_true]
              exact emit_none _
          · simp only [Bool.not_true, Bool.not_false, Bool.false_eq_true, if_false, Bool.false_and, Bool.true_and, ne_eq, hb, not_false_eq_true,
              decide_true, if_true]
            exact emit_none _
      obtain ⟨msg, hadd⟩ := hadd
      refine ⟨msg, ?_⟩
      rw [PM.bind_of_ok hadd]
      rfl

end

end Parser

/-- The entry, once its address is read. -/
theorem parse_readsAnyMask {env : ParseEnv} {p : Parser} {inp t e m : Str} (h : ReadsAnyMask p inp) (ht : Trims inp t) (hcut : CutMask t e m)
    {p1 p2 : Parser} {v4 : Bool} {l l2 : List Range} (h1 : Parser.parseAddress env e m [] p = (p1, .ok (v4, l)))
    (h2 : Parser.maskLoop env m v4 l p1 = (p2, .ok l2)) :
    Parser.parse env inp p = (p2, .ok (if p.errorCount = p2.errorCount then l2 else [])) := by
  rw [parse_one_unsorted env inp p h.one h.sort, Parser.parseCidr_mask env inp [] p h.mask, trims_eq ht, cutMask_split hcut]
  dsimp only
  rw [h1]
  dsimp only
  rw [h2]
  rfl

/-- The address of the entry, before its mask. -/
theorem readsAnyMask_address {env : ParseEnv} {p : Parser} {inp e m u q : Str} {n port : Nat} (h : ReadsAnyMask p inp)
    (he : Entry (PortsAllowed p) e u q) (ha : AddressOf u n) (hq : PortOf env p.config q port) :
    ∃ v4 r, Parser.parseAddress env e m [] p = (p, .ok (v4, [r])) ∧ Parser.maskLimit (v4 && r.lo.isIpv4) = entryBits e
      ∧ Parser.chooseMask p.config m v4 = maskInEffect p e m ∧ r.hasFrom = true ∧ r.hasTo = false ∧ ip r.lo.getIpv6.addr = n ∧ r.lo.getPort = port
      ∧ r.lo.mask = Vector.replicate 16 0xFF ∧ r.lo.hostname = u ∧ (r.lo.portDefined = true ↔ q ≠ [])
      ∧ r.lo.protocol = if p.config.protocol = -1 then 6 else p.config.protocol := by
  obtain ⟨hh, hbits⟩ := entry_bits he ha
  obtain ⟨v4, r, b, h1, h2, h3⟩ := Parser.parseAddress_accepts (env := env) ⟨h.lookup, h.protocol⟩ he ha hq
  have hv := Parser.parseAddress_fst env e [] [] p p _ hh h1
  dsimp only at hv
  rw [← Parser.parseAddress_mask env e m [] p hh] at h1
  have haddr : ip r.lo.getIpv6.addr = n := by
    rw [Addr.getIpv6, h3.address]
    exact h2
  have hport : r.lo.getPort = port := by
    rw [Addr.getPort, h3.address]
    show (swap16 (swap16 (BitVec.ofNat 16 port))).toNat = port
    rw [swap16_swap16, BitVec.toNat_ofNat, Nat.mod_eq_of_lt (by have := hq.1; omega)]
  have hproto := Parser.kept_parseAddress (Q := fun x => x = if p.config.protocol = -1 then 6 else p.config.protocol) (env := env) (c := p.config)
    ⟨fun _ _ => rfl, fun hf => by rw [h.lookup] at hf; cases hf⟩ e m p rfl
  rw [h1] at hproto
  refine ⟨v4, r, h1, ?_, ?_, h3.hasFrom, h3.hasTo, haddr, hport, h3.mask, h3.hostname, by rw [h3.portDefined, decide_eq_true_eq],
    (hproto.2 _ rfl r List.mem_cons_self).2.1 h3.hasFrom⟩
  · rcases hbits with ⟨i1, i2, i3⟩ | ⟨i1, i2⟩
    · rw [hv, i2, i3, (isIpv4_iff r.lo).2 (by show isV4 (ip r.lo.getIpv6.addr); rw [haddr]; exact i1)]
      rfl
    · rw [hv, i1, i2]
      rfl
  · rw [Parser.chooseMask, maskInEffect]
    rcases hbits with ⟨_, i2, i3⟩ | ⟨i1, i2⟩
    · rw [hv, i2, i3, if_pos rfl, if_pos rfl]
    · rw [hv, i1, i2, if_neg Bool.false_ne_true, if_neg (by decide : ¬ (128 = 32))]
      by_cases hc : ':' ∈ p.config.defaultMask6
      · have := List.ne_nil_of_mem hc
        simp [hc, this]
      · simp [hc]

/-! ### C94 -/

/-- C94: an entry followed by a mask (or with a default mask) is accepted, and its mask is the one which is written. -/
theorem C94_accepted (env : ParseEnv) (p : Parser) (inp t e m u q : Str) (n port v : Nat) (h : ReadsAnyMask p inp) (ht : Trims inp t)
    (hcut : CutMask t e m) (he : Entry (PortsAllowed p) e u q) (ha : AddressOf u n) (hq : PortOf env p.config q port)
    (hnul : '\x00' ∉ maskInEffect p e m) (hm : WritesMask env p e port (maskInEffect p e m) v) :
    ∃ r, Parser.parse env inp p = (p, .ok [r]) ∧ r.hasFrom = true ∧ r.hasTo = false ∧ ip r.lo.getIpv6.addr = n ∧ r.lo.getPort = port
      ∧ ip r.lo.getMask = v ∧ r.lo.hostname = u ∧ (r.lo.portDefined = true ↔ q ≠ []) := by
  obtain ⟨v4, r, h1, h2, h3, h4, h5, h6, h7, h8, h9, h10, h11⟩ := readsAnyMask_address (m := m) h he ha hq
  obtain ⟨b, g1, g2⟩ := Parser.parseMask_writes (a := r.lo) h.addressMask h8 h7 h11 h.protocol h2 hnul hm
  refine ⟨{ r with lo := b }, ?_, h4, h5, ?_, ?_, g2.mask, g2.hostname.trans h9, by rw [← h10]; show b.portDefined = true ↔ _; rw [g2.portDefined]⟩
  · have := parse_readsAnyMask h ht hcut h1 (p2 := p) (l2 := [{ r with lo := b }]) (by
      rw [Parser.maskLoop, PM.config_bind, h3, PM.bind_of_ok g1]
      rfl)
    rw [this, if_pos rfl]
  · rw [← h6]
    show ip b.address.addr = _
    rw [g2.address]
    rfl
  · rw [← h7]
    show (swap16 b.address.port).toNat = _
    rw [g2.address]
    rfl

/-- C94: an entry whose mask is not one of these is refused, and so is a text which is not an entry: no range, one more error. -/
theorem C94_refused (env : ParseEnv) (p : Parser) (inp t e m : Str) (h : ReadsAnyMask p inp) (ht : Trims inp t) (hcut : CutMask t e m)
    (henv : SomeAnswers env) (hnul : '\x00' ∉ t) (hnul' : '\x00' ∉ maskInEffect p e m) (hl : p.config.flags .requiredAddress = true ∨ ¬ LeftOut e)
    (hno : ¬ ∃ u q n port v, Entry (PortsAllowed p) e u q ∧ AddressOf u n ∧ PortOf env p.config q port
      ∧ WritesMask env p e port (maskInEffect p e m) v) :
    ∃ p', Parser.parse env inp p = (p', .ok []) ∧ p'.config = p.config ∧ p'.getErrorCount = p.getErrorCount + 1
      ∧ p'.hasErrors = true ∧ p.errorMessages <+: p'.errorMessages := by
  have key (msg : Str) (l : List Range) (v4 : Bool) (p1 : Parser) (h1 : Parser.parseAddress env e m [] p = (p1, .ok (v4, l)))
      (l2 : List Range) (h2 : Parser.maskLoop env m v4 l p1 = (Parser.emitAll [msg] p, .ok l2)) :
      ∃ p', Parser.parse env inp p = (p', .ok []) ∧ p'.config = p.config ∧ p'.getErrorCount = p.getErrorCount + 1
        ∧ p'.hasErrors = true ∧ p.errorMessages <+: p'.errorMessages := by
    refine ⟨Parser.emitAll [msg] p, ?_, rfl, ?_, ?_, ?_⟩
    · rw [parse_readsAnyMask h ht hcut h1 h2, if_neg]
      simp [Parser.emitAll]
    · simp [Parser.emitAll, Parser.getErrorCount]
    · simp [Parser.emitAll, Parser.hasErrors]
    · simp [Parser.emitAll, Parser.errorMessages]
  obtain ⟨m1, _⟩ := cutMask_mem hcut
  by_cases hacc : ∃ u q n port, Entry (PortsAllowed p) e u q ∧ AddressOf u n ∧ PortOf env p.config q port
  · obtain ⟨u, q, n, port, he, ha, hq⟩ := hacc
    have hno' : ¬ ∃ v, WritesMask env p e port (maskInEffect p e m) v := fun ⟨v, hv⟩ => hno ⟨u, q, n, port, v, he, ha, hq, hv⟩
    obtain ⟨v4, r, h1, h2, h3, h4, h5, h6, h7, h8, h9, h10, h11⟩ := readsAnyMask_address (m := m) h he ha hq
    obtain ⟨msg, hmsg⟩ := Parser.parseMask_refused (a := r.lo) h.addressMask h7 h11 h.protocol h2 hnul' henv hno'
    refine key msg [r] v4 p h1 [r] ?_
    rw [Parser.maskLoop, PM.config_bind, h3, PM.bind_of_ok hmsg]
    rfl
  · obtain ⟨v4, msg, h1⟩ := Parser.parseAddress_refuses_mask (env := env) h.lookup (t := e) m (fun hx => hnul (m1 _ hx))
      (h.range.imp_right fun h' h2 => h' (trims_mem ht _ (m1 _ h2))) hl
      (fun ⟨u, q, h1, n, port, h2, h3⟩ => hacc ⟨u, q, n, port, h1, h2, h3⟩)
    exact key msg [] v4 _ h1 [] rfl

/-- C94: the texts accepted are those of the language. -/
theorem C94_language (env : ParseEnv) (p : Parser) (inp t e m : Str) (h : ReadsAnyMask p inp) (ht : Trims inp t) (hcut : CutMask t e m)
    (henv : SomeAnswers env) (hnul : '\x00' ∉ t) (hnul' : '\x00' ∉ maskInEffect p e m) (hl : p.config.flags .requiredAddress = true ∨ ¬ LeftOut e) :
    (∃ r, (Parser.parse env inp p).2 = .ok [r])
      ↔ ∃ u q n port v, Entry (PortsAllowed p) e u q ∧ AddressOf u n ∧ PortOf env p.config q port
          ∧ WritesMask env p e port (maskInEffect p e m) v := by
  constructor
  · rintro ⟨r, hr⟩
    refine Classical.byContradiction fun hno => ?_
    obtain ⟨p', h1, _⟩ := C94_refused env p inp t e m h ht hcut henv hnul hnul' hl hno
    rw [h1] at hr
    cases hr
  · rintro ⟨u, q, n, port, v, he, ha, hq, hm⟩
    obtain ⟨r, hr, _⟩ := C94_accepted env p inp t e m u q n port v h ht hcut he ha hq hnul' hm
    exact ⟨r, by rw [hr]⟩

/-- C94: the addresses which the result matches are those with the same bits as the address which is written, where the mask has ones. -/
theorem C94_matches (env : ParseEnv) (p : Parser) (inp t e m u q : Str) (n port v : Nat) (h : ReadsAnyMask p inp) (ht : Trims inp t)
    (hcut : CutMask t e m) (he : Entry (PortsAllowed p) e u q) (ha : AddressOf u n) (hq : PortOf env p.config q port)
    (hnul : '\x00' ∉ maskInEffect p e m) (hm : WritesMask env p e port (maskInEffect p e m) v) :
    ∃ l, Parser.parse env inp p = (p, .ok l)
      ∧ ∀ a : Addr, ∃ b, addressMatchRanges l a = .ok b
        ∧ (b = true ↔ ∀ i, i < 128 → v.testBit i = true → n.testBit i = (ip a.getIpv6.addr).testBit i) := by
  obtain ⟨r, h1, h2, h3, h4, _, h5, _⟩ := C94_accepted env p inp t e m u q n port v h ht hcut he ha hq hnul hm
  refine ⟨[r], h1, fun a => ?_⟩
  obtain ⟨b, h6, h7⟩ := C35_any_range [r] a
  refine ⟨b, h6, h7.trans ?_⟩
  have hone : r.matchAddr a = .ok (r.lo.matchAddr a) := by
    simp [Range.matchAddr, Range.isEmpty, Range.isRange, h2, h3]
  have hb := C11_match_bits r.lo a
  rw [h4, h5] at hb
  rw [← hb]
  simp [hone]

/-- `getaddrinfo()` reads the texts of addresses. -/
structure ReadsTexts (env : ParseEnv) : Prop where
  v4 : ∀ (b : Bytes4) (service : Str) (hint : Int), ∃ pr sa l,
    env.getaddrinfo (dotted (ip4 b)) service true hint = .list (.inet sizeofIn pr sa :: l) ∧ sa.addr = b
  v6 : ∀ (x : Str) (b : Bytes16) (service : Str) (hint : Int), IPv6Text x (hextets (ip b)) → ∃ pr sa l,
    env.getaddrinfo x service true hint = .list (.inet6 sizeofIn6 pr sa :: l) ∧ sa.addr = b

/-- C94: a mask in dotted decimal notation after an IPv4 address has the bits of these four bytes. -/
theorem C94_dotted (env : ParseEnv) (p : Parser) (inp t e u q : Str) (n port : Nat) (mask : Bytes4) (h : ReadsAnyMask p inp) (ht : Trims inp t)
    (hcut : CutMask t e (dotted (ip4 mask))) (he : Entry (PortsAllowed p) e u q) (hb : entryBits e = 32) (ha : AddressOf u n)
    (hq : PortOf env p.config q port) (henv : ReadsTexts env) :
    ∃ r, Parser.parse env inp p = (p, .ok [r]) ∧ r.hasFrom = true ∧ r.hasTo = false ∧ ip r.lo.getIpv6.addr = n ∧ r.lo.getPort = port
      ∧ ip r.lo.getMask = (2 ^ 96 - 1) * 2 ^ 32 + ip4 mask := by
  have hc : ∀ c ∈ dotted (ip4 mask), c ∈ Parser.addressChars := by
    rw [← ntop4_dotted]
    exact fun c hc => (by decide : ∀ c ∈ "0123456789.".toList, c ∈ Parser.addressChars) c (Inet.ntop4_chars _ c hc)
  have hm : maskInEffect p e (dotted (ip4 mask)) = dotted (ip4 mask) := by
    rw [maskInEffect, if_pos (by simp [dotted])]
  obtain ⟨pr, sa, l, h1, h2⟩ := henv.v4 mask (dec port) (if p.config.protocol = -1 then IPPROTO_TCP else p.config.protocol)
  have hlike : AddressLike (dotted (ip4 mask)) := by
    have := ntop4_notNumber mask
    rw [ntop4_dotted, Parser.cstr_chars hc] at this
    exact (Parser.scanDigits_notNumber (by omega)).1 this
  have hw := WritesMask.four (p := p) (port := port) hb hlike (fun h => absurd (hc _ (List.mem_of_head? h)) (by decide)) h1
  rw [h2] at hw
  obtain ⟨r, g1, g2, g3, g4, g5, g6, _⟩ := C94_accepted env p inp t e _ u q n port _ h ht hcut he ha hq
    (by rw [hm]; exact fun h => absurd (hc _ h) (by decide)) (by rw [hm]; exact hw)
  exact ⟨r, g1, g2, g3, g4, g5, g6⟩

/-- C94: a mask which is an IPv6 address in brackets, after an IPv6 address (or an address in brackets), has the bits of this address. -/
theorem C94_bracketed (env : ParseEnv) (p : Parser) (inp t e u q x : Str) (n port : Nat) (mask : Bytes16) (h : ReadsAnyMask p inp)
    (ht : Trims inp t) (hcut : CutMask t e ('[' :: x ++ [']'])) (hx : IPv6Text x (hextets (ip mask))) (he : Entry (PortsAllowed p) e u q)
    (hb : entryBits e = 128) (ha : AddressOf u n) (hq : PortOf env p.config q port) (henv : ReadsTexts env) :
    ∃ r, Parser.parse env inp p = (p, .ok [r]) ∧ r.hasFrom = true ∧ r.hasTo = false ∧ ip r.lo.getIpv6.addr = n ∧ r.lo.getPort = port
      ∧ ip r.lo.getMask = ip mask := by
  have hxa : AddressOf x (ip mask) := .inr ⟨ip_lt mask, hx⟩
  have hc := Parser.address_chars hxa
  have hm : maskInEffect p e ('[' :: x ++ [']']) = '[' :: x ++ [']'] := by
    rw [maskInEffect, if_pos (by simp)]
  obtain ⟨pr, sa, l, h1, h2⟩ := henv.v6 x mask (dec port) (if p.config.protocol = -1 then IPPROTO_TCP else p.config.protocol) hx
  have hw := WritesMask.six (p := p) (port := port) hb (Parser.address_ne hxa) h1
  rw [h2] at hw
  obtain ⟨r, g1, g2, g3, g4, g5, g6, _⟩ := C94_accepted env p inp t e _ u q n port _ h ht hcut he ha hq
    (by
      rw [hm]
      intro h
      rcases List.mem_append.1 h with h | h
      · rcases List.mem_cons.1 h with h | h
        · exact absurd h (by decide)
        · exact absurd (hc _ h) (by decide)
      · exact absurd h (by decide)) (by rw [hm]; exact hw)
  exact ⟨r, g1, g2, g3, g4, g5, g6⟩

/-! ### Examples -/

theorem numericEnv_texts : ReadsTexts numericEnv where
  v4 b s pr := by
    refine ⟨pr, { family := AF_INET, port := 0, addr := b, zero := Vector.replicate 8 0 }, [], ?_, rfl⟩
    show (match Inet.pton4 (dotted (ip4 b)) with
      | some b => _
      | none => _) = _
    rw [(Inet.pton4_iff _ b).2 (ntop4_dotted b).symm]
  v6 x b s pr hx := by
    refine ⟨pr, { family := AF_INET6, port := 0, flowinfo := 0, scope := 0, addr := b }, [], ?_, rfl⟩
    have hn : Inet.pton4 x = none := by
      cases h4 : Inet.pton4 x with
      | none => rfl
      | some c =>
        have := Parser.text_colons hx
        rw [(Inet.pton4_iff x c).1 h4] at this
        have h0 : ':' ∉ Inet.ntop4 c := fun h => absurd (Inet.ntop4_chars _ _ h) (by decide)
        rw [List.count_eq_zero.2 h0] at this
        omega
    show (match Inet.pton4 x with
      | some b => _
      | none => _) = _
    rw [hn]
    show (match Inet.pton6 x with
      | some b => _
      | none => _) = _
    rw [(Inet.pton6_iff x b).2 hx]

theorem numericEnv_answers : SomeAnswers numericEnv := by
  intro node service numeric hint
  show (match Inet.pton4 node with
      | some b => GaiAnswer.list [.inet sizeofIn hint { family := AF_INET, port := 0, addr := b, zero := Vector.replicate 8 0 }]
      | none =>
        match Inet.pton6 node with
        | some b => .list [.inet6 sizeofIn6 hint { family := AF_INET6, port := 0, flowinfo := 0, scope := 0, addr := b }]
        | none => .error (-2) 0) ≠ _
  split
  · exact fun h => nomatch h
  · split <;> exact fun h => nomatch h

theorem printParser_readsAny (inp : Str) (h : inp ≠ []) : ReadsAnyMask printParser inp where
  lookup := by decide
  mask := by decide
  addressMask := by decide
  range := .inl (by decide)
  protocol := by decide
  one := ⟨h, fun x _ => by
    rw [separates, show printParser.config.flags .multiAddressesCommas = false by decide,
      show printParser.config.flags .multiAddressesSpaces = false by decide, show printParser.config.flags .multiAddressesNewlines = false by decide]
    rfl, ⟨by decide, by decide⟩⟩
  sort := by unfold Unsorted; decide

/-- "10.1.2.3:80/255.255.0.255" matches the addresses 10.1.x.3: the mask need not be a number of bits. -/
example : ∃ r, Parser.parse numericEnv "10.1.2.3:80/255.255.0.255".toList printParser = (printParser, .ok [r])
    ∧ ip r.lo.getIpv6.addr = 0xFFFF0A010203 ∧ ip r.lo.getMask = 2 ^ 128 - 2 ^ 16 + 255 := by
  obtain ⟨r, h1, _, _, h2, _, h3⟩ := C94_dotted numericEnv printParser "10.1.2.3:80/255.255.0.255".toList "10.1.2.3:80/255.255.0.255".toList
    "10.1.2.3:80".toList "10.1.2.3".toList "80".toList 0xFFFF0A010203 80 #v[255, 255, 0, 255] (printParser_readsAny _ (by decide))
    (trims_self (by decide) (by decide)) ⟨by decide, .inr (by decide +kernel)⟩
    (Entry.port4 (u := "10.1.2.3".toList) (q := "80".toList) (by decide) (by decide) (.inl (by decide))) (by decide)
    (.inl ⟨0x0A010203, by decide, by decide, rfl⟩) ⟨by decide, by rw [if_pos (by decide)]; exact ⟨.inl (by decide), by decide⟩⟩ numericEnv_texts
  exact ⟨r, h1, h2, h3.trans (by decide)⟩

/-- C94_refused: a mask of IPv4 after an address in brackets. -/
example : ∃ p', Parser.parse numericEnv "[::1]/255.0.0.0".toList printParser = (p', .ok []) ∧ p'.getErrorCount = 1 := by
  obtain ⟨p', h1, _, h2, _⟩ := C94_refused numericEnv printParser "[::1]/255.0.0.0".toList "[::1]/255.0.0.0".toList "[::1]".toList
    "255.0.0.0".toList (printParser_readsAny _ (by decide)) (trims_self (by decide) (by decide)) ⟨by decide, .inr rfl⟩ numericEnv_answers
    (by decide) (by decide) (.inr (by
      rintro (h | h)
      all_goals exact absurd h (by decide))) (by
      rintro ⟨u, q, n, port, v, _, _, _, hw⟩
      rw [show maskInEffect printParser "[::1]".toList "255.0.0.0".toList = "255.0.0.0".toList by decide] at hw
      generalize hx : "255.0.0.0".toList = x at hw
      cases hw with
      | none => cases hx
      | bits _ hd _ => exact absurd (hd '.' (by rw [← hx]; decide)) (by decide)
      | four he _ _ _ => exact absurd he (by decide)
      | six _ _ _ => cases hx
      | brackets _ => cases hx)
  exact ⟨p', h1, h2⟩

end Verif
