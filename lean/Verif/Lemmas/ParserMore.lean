import Verif.Lemmas.ParserAgree
import Verif.Lemmas.ParserAppend
import Verif.Lemmas.Language

/-!
# Lemmas about the parser: what is read without an error stays read when more is allowed
-/

namespace Verif.Parser

open Spec

/-- With configuration `c`, `m` emits no error and gives `a`. -/
def Clean {α : Type} (c : Config) (m : PM α) (a : α) : Prop := Logs c m [] (.ok a)

theorem clean_cases {α : Type} {c : Config} {m : PM α} {a : α} {errs : List Str} {r : Res α} (h : Logs c m errs r) (hc : Clean c m a) :
    errs = [] ∧ r = .ok a := by
  have h1 := (h { blank with config := c } rfl).symm.trans (hc { blank with config := c } rfl)
  have h2 := congrArg (fun x => x.1.errorCount) h1
  refine ⟨?_, congrArg Prod.snd h1⟩
  simp only [emitAll, List.length_nil] at h2
  exact List.length_eq_zero_iff.1 (by omega)

theorem clean_bind {α β : Type} {c : Config} {m : PM α} {f : α → PM β} {b : β} (h1 : Logging c m) (h2 : ∀ a, Logging c (f a))
    (h : Clean c (m >>= f) b) : ∃ a, Clean c m a ∧ Clean c (f a) b := by
  obtain ⟨e1, r, h1⟩ := h1
  cases r with
  | ok a =>
    obtain ⟨e2, r2, h2⟩ := h2 a
    obtain ⟨h3, h4⟩ := clean_cases (logs_bind h1 h2) h
    obtain ⟨h5, h6⟩ := List.append_eq_nil_iff.1 h3
    subst h5 h6 h4
    exact ⟨a, h1, h2⟩
  | throw e => exact nomatch (clean_cases (logs_bind_throw h1) h).2
  | ub w => exact nomatch (clean_cases (logs_bind_ub h1) h).2

theorem clean_emit {α : Type} {c : Config} {msg : Str} {f : Unit → PM α} {a : α} (hf : Logging c (f ())) (h : Clean c (emitError msg >>= f) a) :
    False := by
  obtain ⟨e, r, hf⟩ := hf
  exact List.cons_ne_nil _ _ (clean_cases (logs_bind (logs_emit c msg) hf) h).1

theorem clean_pure {α : Type} {c : Config} {a b : α} : Clean c (Pure.pure a : PM α) b ↔ a = b := by
  constructor
  · intro h
    exact Res.ok.inj (clean_cases (logs_pure c a) h).2
  · rintro rfl
    exact logs_pure c a

theorem clean_lift {α : Type} {c : Config} {r : Res α} {b : α} : Clean c (PM.lift r) b ↔ r = .ok b := by
  constructor
  · intro h
    exact (clean_cases (logs_lift c r) h).2
  · rintro rfl
    exact logs_lift c _

theorem clean_config {β : Type} {c : Config} {f : Config → PM β} {b : β} : Clean c (PM.config >>= f) b ↔ Clean c (f c) b := by
  constructor
  · intro h p hp
    have := h p hp
    rwa [PM.config_bind, hp] at this
  · intro h p hp
    rw [PM.config_bind, hp]
    exact h p hp

theorem clean_getAllow {β : Type} {c : Config} {x : Allow} {f : Bool → PM β} {b : β} :
    Clean c (getAllow x >>= f) b ↔ Clean c (f (c.flags x)) b := by
  have e : ∀ (q : Parser) (g : Bool → PM β), (getAllow x >>= g) q = g (q.config.flags x) q := fun _ _ => rfl
  constructor
  · intro h p hp
    have := h p hp
    rwa [e, hp] at this
  · intro h p hp
    rw [e, hp]
    exact h p hp

theorem clean_join {α β : Type} {c : Config} {m : PM α} {f : α → PM β} {a : α} {b : β} (h1 : Clean c m a) (h2 : Clean c (f a) b) :
    Clean c (m >>= f) b := logs_bind h1 h2

/-- The second configuration allows more than the first one: the differences are `ALLOW_PORT`, `ALLOW_ADDRESS_RANGE`, `ALLOW_MASK`
(without default masks) and `ALLOW_ADDRESS_MASK`, which it may have and the first not, and `ALLOW_REQUIRED_ADDRESS`, which the first
may have and it not. -/
structure More (c c' : Config) : Prop where
  lookup : c.flags .addressLookup = false
  lookup' : c'.flags .addressLookup = false
  requiredPort : c.flags .requiredPort = c'.flags .requiredPort
  port : c.flags .port = true → c'.flags .port = true
  range : c.flags .addressRange = true → c'.flags .addressRange = true
  addressMask : c.flags .addressMask = true → c'.flags .addressMask = true
  required : c'.flags .requiredAddress = true → c.flags .requiredAddress = true
  mask : c.flags .mask = c'.flags .mask ∨ (c'.flags .mask = true ∧ c'.defaultMask4 = [] ∧ c'.defaultMask6 = [])
  address4 : c.defaultAddress4 = c'.defaultAddress4
  address6 : c.defaultAddress6 = c'.defaultAddress6
  mask4 : c.defaultMask4 = c'.defaultMask4
  mask6 : c.defaultMask6 = c'.defaultMask6
  protocol : c.protocol = c'.protocol
  defaultPort : c.defaultPort = c'.defaultPort
  sort : c.sort = c'.sort

section
variable {c c' : Config} (h : More c c')

theorem clean_numericAddress {address : Str} {port : Int} {d : Bool} {result l : List Range}
    (hc : Clean c (numericAddress address port d result) l) : (Inet.pton4 (cstr address)).isSome ∨ (Inet.pton6 (cstr address)).isSome := by
  unfold numericAddress at hc
  dsimp only at hc
  rw [clean_config] at hc
  split at hc
  · rename_i b hb; exact .inl (by rw [hb]; rfl)
  · split at hc
    · rename_i b hb; exact .inr (by rw [hb]; rfl)
    · exact (clean_emit (f := fun _ => Pure.pure result) (logging_pure _ _) hc).elim

theorem numeric_address {t : Str} (hn : '\x00' ∉ t) (h : (Inet.pton4 (cstr t)).isSome ∨ (Inet.pton6 (cstr t)).isSome) :
    ∃ n, AddressOf t n := by
  have hc : cstr t = t := cstr_noNul fun c hc e => hn (e ▸ hc)
  cases h4 : Inet.pton4 (cstr t) with
  | some b => exact ⟨_, (writes_iff hc (mapped b)).1 (.inl ⟨b, h4, rfl⟩)⟩
  | none =>
    rw [h4] at h
    rcases h with h | h
    · cases h
    · obtain ⟨b, hb⟩ := Option.isSome_iff_exists.1 h
      exact ⟨_, (writes_iff hc b).1 (.inr ⟨h4, hb⟩)⟩

theorem more_agree_numeric (h : More c c') {address : Str} {port : Int} {d : Bool} {result l : List Range}
    (hc : Clean c (numericAddress address port d result) l) : Clean c' (numericAddress address port d result) l := by
  unfold numericAddress at hc ⊢
  dsimp only at hc ⊢
  rw [clean_config] at hc ⊢
  rw [← h.protocol]
  split at hc
  · obtain ⟨r, h1, h2⟩ := clean_bind (logging_lift _ _) (fun _ => logging_pure _ _) hc
    exact clean_join (clean_lift.2 (clean_lift.1 h1)) (clean_pure.2 (clean_pure.1 h2))
  · split at hc
    · obtain ⟨r, h1, h2⟩ := clean_bind (logging_lift _ _) (fun _ => logging_pure _ _) hc
      exact clean_join (clean_lift.2 (clean_lift.1 h1)) (clean_pure.2 (clean_pure.1 h2))
    · exact (clean_emit (f := fun _ => Pure.pure result) (logging_pure _ _) hc).elim

/-- What `noLookupAddress` reads without an error. -/
theorem clean_noLookup {env : ParseEnv} {address port : Str} {d : Bool} {result l : List Range}
    (hc : Clean c (noLookupAddress env address port d result) l) :
    (port ≠ [] → (env.convert port).isSome) ∧ ((Inet.pton4 (cstr address)).isSome ∨ (Inet.pton6 (cstr address)).isSome) := by
  unfold noLookupAddress at hc
  rw [clean_getAllow, clean_getAllow] at hc
  split at hc
  · split at hc
    · exact (clean_emit (f := fun _ => Pure.pure result) (logging_pure _ _) hc).elim
    · rename_i n hn
      split at hc
      · exact (clean_emit (f := fun _ => Pure.pure result) (logging_pure _ _) hc).elim
      · split at hc
        · exact (clean_emit (f := fun _ => Pure.pure result) (logging_pure _ _) hc).elim
        · exact ⟨fun _ => by rw [hn]; rfl, clean_numericAddress hc⟩
  · rename_i hn
    exact ⟨fun hp => absurd (by simp [hp]) hn, clean_numericAddress hc⟩

theorem more_noLookup (h : More c c') {env : ParseEnv} {address port : Str} {d : Bool} {result l : List Range}
    (hc : Clean c (noLookupAddress env address port d result) l) : Clean c' (noLookupAddress env address port d result) l := by
  unfold noLookupAddress at hc ⊢
  rw [clean_getAllow, clean_getAllow] at hc ⊢
  rw [← h.requiredPort]
  split at hc
  · rename_i h1
    rw [if_pos h1]
    split at hc
    · exact (clean_emit (f := fun _ => Pure.pure result) (logging_pure _ _) hc).elim
    · rename_i n hn
      split at hc
      · exact (clean_emit (f := fun _ => Pure.pure result) (logging_pure _ _) hc).elim
      · rename_i h2
        rw [if_neg h2]
        split at hc
        · exact (clean_emit (f := fun _ => Pure.pure result) (logging_pure _ _) hc).elim
        · rename_i h3
          have : ¬ ((!c'.flags .port && !c.flags .requiredPort) = true) := by
            intro h4
            apply h3
            have := h.port
            cases hp : c.flags .port
            · rw [Bool.and_eq_true] at h4 ⊢
              exact ⟨rfl, h4.2⟩
            · rw [this hp] at h4
              simp at h4
          rw [if_neg this]
          exact more_agree_numeric h hc
  · rename_i h1
    rw [if_neg h1]
    exact more_agree_numeric h hc

/-- What `parse_address_port()` reads without an error. -/
theorem clean_parseAddressPort (hl : c.flags .addressLookup = false) {env : ParseEnv} {address port : Str} {v6 : Bool} {result l : List Range}
    (hc : Clean c (parseAddressPort env address port result v6) l) :
    (port ≠ [] → (env.convert port).isSome)
      ∧ (address ≠ [] → (Inet.pton4 (cstr address)).isSome ∨ (Inet.pton6 (cstr address)).isSome) := by
  unfold parseAddressPort at hc
  rw [clean_config] at hc
  dsimp only at hc
  split at hc
  · exact (clean_emit (f := fun _ => Pure.pure result) (logging_pure _ _) hc).elim
  · split at hc
    · exact (clean_emit (f := fun _ => Pure.pure result) (logging_pure _ _) hc).elim
    · rw [if_neg (by simp [hl])] at hc
      obtain ⟨h1, h2⟩ := clean_noLookup hc
      refine ⟨fun hp => ?_, fun ha => ?_⟩
      · rw [if_neg (by simp [hp])] at h1
        exact h1 hp
      · rwa [if_neg ha] at h2

theorem more_parseAddressPort (h : More c c') {env : ParseEnv} {address port : Str} {v6 : Bool} {result l : List Range}
    (hc : Clean c (parseAddressPort env address port result v6) l) : Clean c' (parseAddressPort env address port result v6) l := by
  unfold parseAddressPort at hc ⊢
  rw [clean_config] at hc ⊢
  dsimp only at hc ⊢
  rw [← h.requiredPort, ← h.address4, ← h.address6, ← h.defaultPort]
  split at hc
  · exact (clean_emit (f := fun _ => Pure.pure result) (logging_pure _ _) hc).elim
  · rename_i h1
    rw [if_neg h1]
    split at hc
    · exact (clean_emit (f := fun _ => Pure.pure result) (logging_pure _ _) hc).elim
    · rename_i h2
      have : ¬ ((decide (address = []) && c'.flags .requiredAddress) = true) := by
        intro h3
        apply h2
        rw [Bool.and_eq_true] at h3 ⊢
        exact ⟨h3.1, h.required h3.2⟩
      rw [if_neg this]
      rw [if_neg (by simp [h.lookup])] at hc
      rw [if_neg (by simp [h.lookup'])]
      exact more_noLookup h hc

theorem clean_ignoreDuplicates {env : ParseEnv} {address port : Str} {v6 : Bool} {result l : List Range}
    (hc : Clean c (ignoreDuplicates env address port result v6) l) : ∃ l', Clean c (parseAddressPort env address port result v6) l' := by
  unfold ignoreDuplicates at hc
  obtain ⟨l', h1, _⟩ := clean_bind (logging_parseAddressPort _ _ _ _ _ _) (fun _ => by repeat' logging_step) hc
  exact ⟨l', h1⟩

theorem more_ignoreDuplicates (h : More c c') {env : ParseEnv} {address port : Str} {v6 : Bool} {result l : List Range}
    (hc : Clean c (ignoreDuplicates env address port result v6) l) : Clean c' (ignoreDuplicates env address port result v6) l := by
  unfold ignoreDuplicates at hc ⊢
  obtain ⟨l', h1, h2⟩ := clean_bind (logging_parseAddressPort _ _ _ _ _ _) (fun _ => by repeat' logging_step) hc
  refine clean_join (more_parseAddressPort h h1) ?_
  cases l' with
  | nil => exact clean_pure.2 (clean_pure.1 h2)
  | cons r l' =>
    obtain ⟨x, h3, h4⟩ := clean_bind (logging_lift _ _) (fun _ => logging_pure _ _) h2
    exact clean_join (clean_lift.2 (clean_lift.1 h3)) (clean_pure.2 (clean_pure.1 h4))

theorem clean_parseBound {env : ParseEnv} {w address port : Str} {v6 : Bool} {r : Option Range}
    (hc : Clean c (parseBound env w address port v6) r) : ∃ l', Clean c (parseAddressPort env address port [] v6) l' := by
  unfold parseBound at hc
  obtain ⟨l', h1, _⟩ := clean_bind (logging_ignoreDuplicates _ _ _ _ _ _) (fun _ => by repeat' logging_step) hc
  exact clean_ignoreDuplicates h1

theorem more_parseBound (h : More c c') {env : ParseEnv} {w address port : Str} {v6 : Bool} {r : Option Range}
    (hc : Clean c (parseBound env w address port v6) r) : Clean c' (parseBound env w address port v6) r := by
  unfold parseBound at hc ⊢
  obtain ⟨l', h1, h2⟩ := clean_bind (logging_ignoreDuplicates _ _ _ _ _ _) (fun _ => by repeat' logging_step) hc
  refine clean_join (more_ignoreDuplicates h h1) ?_
  split at h2
  · exact clean_pure.2 (clean_pure.1 h2)
  · exact clean_pure.2 (clean_pure.1 h2)
  · exact (clean_emit (f := fun _ => Pure.pure none) (logging_pure _ _) h2).elim

theorem clean_numericAddress_one {address : Str} {port : Int} {d : Bool} {result l : List Range}
    (hc : Clean c (numericAddress address port d result) l) : ∃ r, l = result ++ [r] := by
  unfold numericAddress at hc
  dsimp only at hc
  rw [clean_config] at hc
  split at hc
  · obtain ⟨r, _, h2⟩ := clean_bind (logging_lift _ _) (fun _ => logging_pure _ _) hc
    exact ⟨r, (clean_pure.1 h2).symm⟩
  · split at hc
    · obtain ⟨r, _, h2⟩ := clean_bind (logging_lift _ _) (fun _ => logging_pure _ _) hc
      exact ⟨r, (clean_pure.1 h2).symm⟩
    · exact (clean_emit (f := fun _ => Pure.pure result) (logging_pure _ _) hc).elim

theorem clean_noLookup_one {env : ParseEnv} {address port : Str} {d : Bool} {result l : List Range}
    (hc : Clean c (noLookupAddress env address port d result) l) : ∃ r, l = result ++ [r] := by
  unfold noLookupAddress at hc
  rw [clean_getAllow, clean_getAllow] at hc
  split at hc
  · split at hc
    · exact (clean_emit (f := fun _ => Pure.pure result) (logging_pure _ _) hc).elim
    · split at hc
      · exact (clean_emit (f := fun _ => Pure.pure result) (logging_pure _ _) hc).elim
      · split at hc
        · exact (clean_emit (f := fun _ => Pure.pure result) (logging_pure _ _) hc).elim
        · exact clean_numericAddress_one hc
  · exact clean_numericAddress_one hc

theorem clean_parseAddressPort_one (hl : c.flags .addressLookup = false) {env : ParseEnv} {address port : Str} {v6 : Bool} {result l : List Range}
    (hc : Clean c (parseAddressPort env address port result v6) l) : ∃ r, l = result ++ [r] := by
  unfold parseAddressPort at hc
  rw [clean_config] at hc
  dsimp only at hc
  split at hc
  · exact (clean_emit (f := fun _ => Pure.pure result) (logging_pure _ _) hc).elim
  · split at hc
    · exact (clean_emit (f := fun _ => Pure.pure result) (logging_pure _ _) hc).elim
    · rw [if_neg (by simp [hl])] at hc
      exact clean_noLookup_one hc

theorem clean_parseBound_some (hl : c.flags .addressLookup = false) {env : ParseEnv} {w address port : Str} {v6 : Bool} {r : Option Range}
    (hc : Clean c (parseBound env w address port v6) r) : ∃ x, r = some x := by
  unfold parseBound at hc
  obtain ⟨l', h1, h2⟩ := clean_bind (logging_ignoreDuplicates _ _ _ _ _ _) (fun _ => by repeat' logging_step) hc
  unfold ignoreDuplicates at h1
  obtain ⟨l, h3, h4⟩ := clean_bind (logging_parseAddressPort _ _ _ _ _ _) (fun _ => by repeat' logging_step) h1
  obtain ⟨x, rfl⟩ := clean_parseAddressPort_one hl h3
  obtain ⟨y, h5, h6⟩ := clean_bind (logging_lift _ _) (fun _ => logging_pure _ _) h4
  obtain rfl := clean_pure.1 h6
  obtain rfl := Res.ok.inj (clean_lift.1 h5)
  exact ⟨x, (clean_pure.1 h2).symm⟩

/-- What `parse_address_range_port()` reads without an error: the port is a number, and the addresses are addresses. -/
theorem clean_rangePort (hl : c.flags .addressLookup = false) {env : ParseEnv} {addresses port : Str} {v6 : Bool} {result l : List Range}
    (hn : '\x00' ∉ addresses) (hc : Clean c (parseAddressRangePort env addresses port result v6) l) :
    (port ≠ [] → (env.convert port).isSome)
      ∧ (addresses ≠ [] → ('.' ∈ addresses ∨ ':' ∈ addresses) ∧ (∀ x ∈ addresses, x ∈ textChars ∨ (x = '-' ∧ c.flags .addressRange = true))) := by
  have text : ∀ {a : Str}, '\x00' ∉ a → a ≠ [] → (a ≠ [] → (Inet.pton4 (cstr a)).isSome ∨ (Inet.pton6 (cstr a)).isSome) →
      ('.' ∈ a ∨ ':' ∈ a) ∧ ∀ x ∈ a, x ∈ textChars := by
    intro a hn ha h
    obtain ⟨n, hn⟩ := numeric_address hn (h ha)
    refine ⟨?_, address_chars hn⟩
    rcases address_colon hn with h | h
    · exact .inl h.2
    · exact .inr (List.count_pos_iff.1 (by omega))
  unfold parseAddressRangePort at hc
  rw [clean_config] at hc
  dsimp only at hc
  have hlog : ∀ w a, Logging c (parseBound env w a port v6) := fun w a => logging_parseBound _ _ _ _ _ _
  split at hc
  · obtain ⟨h1, h2⟩ := clean_parseAddressPort hl hc
    exact ⟨h1, fun ha => ⟨(text hn ha h2).1, fun x hx => .inl ((text hn ha h2).2 x hx)⟩⟩
  · exact (clean_emit (f := fun _ => Pure.pure result) (logging_pure _ _) hc).elim
  all_goals
    rename_i hs
    split at hs
    case isFalse => cases hs
    rename_i hr
    obtain ⟨rfl, hd⟩ := splitFirst_some hs
  · rename_i frm hne
    obtain ⟨r, h1, _⟩ := clean_bind (hlog _ _) (fun _ => by repeat' logging_step) hc
    obtain ⟨l', h1⟩ := clean_parseBound h1
    obtain ⟨h1, h2⟩ := clean_parseAddressPort hl h1
    have hf : frm ≠ [] := fun e => hne e
    have := text (fun h => hn (List.mem_append_left _ h)) hf h2
    refine ⟨h1, fun _ => ⟨this.1.imp (List.mem_append_left _) (List.mem_append_left _), fun x hx => ?_⟩⟩
    rcases List.mem_append.1 hx with hx | hx
    · exact .inl (this.2 x hx)
    · exact .inr ⟨List.mem_singleton.1 hx, hr⟩
  · rename_i to hne
    obtain ⟨r, h1, _⟩ := clean_bind (hlog _ _) (fun _ => by repeat' logging_step) hc
    obtain ⟨l', h1⟩ := clean_parseBound h1
    obtain ⟨h1, h2⟩ := clean_parseAddressPort hl h1
    have := text (fun h => hn (List.mem_cons_of_mem _ h)) (fun e => hne e) h2
    refine ⟨h1, fun _ => ⟨this.1.imp (List.mem_cons_of_mem _) (List.mem_cons_of_mem _), fun x hx => ?_⟩⟩
    rcases List.mem_cons.1 hx with hx | hx
    · exact .inr ⟨hx, hr⟩
    · exact .inl (this.2 x hx)
  · rename_i frm to _ _ _
    have hf : frm ≠ [] := by assumption
    have ht : to ≠ [] := by assumption
    obtain ⟨r, h1, h3⟩ := clean_bind (hlog _ _) (fun _ => by repeat' (first | exact hlog _ _ | logging_step)) hc
    obtain ⟨x, rfl⟩ := clean_parseBound_some hl h1
    obtain ⟨l', h1⟩ := clean_parseBound h1
    obtain ⟨h1, h2⟩ := clean_parseAddressPort hl h1
    obtain ⟨r, h4, _⟩ := clean_bind (hlog _ _) (fun _ => by repeat' logging_step) h3
    obtain ⟨l', h4⟩ := clean_parseBound h4
    obtain ⟨_, h5⟩ := clean_parseAddressPort hl h4
    have t1 := text (fun h => hn (List.mem_append_left _ h)) hf h2
    have t2 := text (fun h => hn (List.mem_append_right _ (List.mem_cons_of_mem _ h))) ht h5
    refine ⟨h1, fun _ => ⟨t1.1.imp (List.mem_append_left _) (List.mem_append_left _), fun x hx => ?_⟩⟩
    rcases List.mem_append.1 hx with hx | hx
    · exact .inl (t1.2 x hx)
    · rcases List.mem_cons.1 hx with hx | hx
      · exact .inr ⟨hx, hr⟩
      · exact .inl (t2.2 x hx)

theorem more_rangePort (h : More c c') {env : ParseEnv} {addresses port : Str} {v6 : Bool} {result l : List Range} (hn : '\x00' ∉ addresses)
    (hc : Clean c (parseAddressRangePort env addresses port result v6) l) : Clean c' (parseAddressRangePort env addresses port result v6) l := by
  have hlog : ∀ w a, Logging c (parseBound env w a port v6) := fun w a => logging_parseBound _ _ _ _ _ _
  have hdash : c.flags .addressRange = false → '-' ∉ addresses := by
    intro hr hm
    have := (clean_rangePort h.lookup hn hc).2 (List.ne_nil_of_mem hm)
    rcases this.2 _ hm with h1 | h1
    · exact absurd h1 (by decide)
    · rw [hr] at h1; cases h1.2
  have hsame : (if c'.flags .addressRange then splitFirst '-' addresses else none) = (if c.flags .addressRange then splitFirst '-' addresses else none) := by
    cases hr : c.flags .addressRange with
    | true => rw [h.range hr]
    | false =>
      rw [splitFirst_none.2 (hdash hr)]
      simp
  unfold parseAddressRangePort at hc ⊢
  rw [clean_config] at hc ⊢
  dsimp only at hc ⊢
  rw [hsame, ← h.sort]
  split at hc
  · exact more_parseAddressPort h hc
  · exact (clean_emit (f := fun _ => Pure.pure result) (logging_pure _ _) hc).elim
  · obtain ⟨r, h1, h2⟩ := clean_bind (hlog _ _) (fun _ => by repeat' logging_step) hc
    obtain ⟨x, rfl⟩ := clean_parseBound_some h.lookup h1
    exact clean_join (more_parseBound h h1) (clean_pure.2 (clean_pure.1 h2))
  · obtain ⟨r, h1, h2⟩ := clean_bind (hlog _ _) (fun _ => by repeat' logging_step) hc
    obtain ⟨x, rfl⟩ := clean_parseBound_some h.lookup h1
    exact clean_join (more_parseBound h h1) (clean_pure.2 (clean_pure.1 h2))
  · obtain ⟨r, h1, h2⟩ := clean_bind (hlog _ _) (fun _ => by repeat' (first | exact hlog _ _ | logging_step)) hc
    obtain ⟨x, rfl⟩ := clean_parseBound_some h.lookup h1
    refine clean_join (more_parseBound h h1) ?_
    obtain ⟨r, h3, h4⟩ := clean_bind (hlog _ _) (fun _ => by repeat' logging_step) h2
    obtain ⟨y, rfl⟩ := clean_parseBound_some h.lookup h3
    refine clean_join (more_parseBound h h3) ?_
    dsimp only at h4 ⊢
    split at h4
    · rename_i h5
      rw [if_pos h5]
      exact clean_pure.2 (clean_pure.1 h4)
    · rename_i h5
      rw [if_neg h5]
      exact clean_pure.2 (clean_pure.1 h4)

theorem more_parseAddress4 (h : More c c') {env : ParseEnv} {inp : Str} {result l : List Range} (hn : '\x00' ∉ inp)
    (hc : Clean c (parseAddress4 env inp result) l) : Clean c' (parseAddress4 env inp result) l := by
  unfold parseAddress4 at hc ⊢
  rw [clean_config] at hc ⊢
  rw [← h.requiredPort]
  split at hc
  · exact more_rangePort h hn hc
  · rename_i a b hs
    obtain ⟨rfl, _⟩ := splitFirst_some hs
    split at hc
    · rename_i hp
      rw [if_pos (by
        rw [Bool.or_eq_true] at hp ⊢
        exact hp.imp_left h.port)]
      exact more_rangePort h (fun h => hn (List.mem_append_left _ h)) hc
    · exact (clean_emit (f := fun _ => Pure.pure result) (logging_pure _ _) hc).elim

theorem more_parseAddress6 (h : More c c') {env : ParseEnv} {inp : Str} {n : Nat} {result l : List Range} (hn : '\x00' ∉ inp)
    (hc : Clean c (parseAddress6 env inp n result) l) : Clean c' (parseAddress6 env inp n result) l := by
  unfold parseAddress6 at hc ⊢
  rw [clean_config] at hc ⊢
  rw [← h.requiredPort]
  split at hc
  · rename_i hb
    rw [if_pos hb]
    have sub : ∀ a b, splitFirst ']' (inp.drop 1) = some (a, b) → '\x00' ∉ a := by
      intro a b hs hm
      obtain ⟨e, _⟩ := splitFirst_some hs
      exact hn (List.mem_of_mem_drop (by rw [e]; exact List.mem_append_left _ hm))
    split at hc
    · exact (clean_emit (f := fun _ => Pure.pure result) (logging_pure _ _) hc).elim
    · rename_i hs
      exact more_rangePort h (sub _ _ hs) hc
    · rename_i hs
      split at hc
      · exact (clean_emit (f := fun _ => Pure.pure result) (logging_pure _ _) hc).elim
      · rename_i h1
        rw [if_neg h1]
        split at hc
        · exact (clean_emit (f := fun _ => Pure.pure result) (logging_pure _ _) hc).elim
        · rename_i h2
          rw [if_neg (fun h3 => h2 (by
            rw [Bool.and_eq_true, Bool.not_eq_true'] at h3 ⊢
            refine ⟨Bool.eq_false_iff.2 fun h4 => ?_, h3.2⟩
            rw [h.port h4] at h3
            cases h3.1))]
          exact more_rangePort h (sub _ _ hs) hc
  · rename_i hb
    rw [if_neg hb]
    split at hc
    · rename_i h1
      rw [if_pos h1]
      split at hc
      · exact nomatch (clean_cases (logs_throw c _) hc).2
      · rename_i hs
        obtain ⟨rfl, _⟩ := splitFirst_some hs
        exact more_rangePort h (fun h => hn (List.mem_append_left _ h)) hc
    · rename_i h1
      rw [if_neg h1]
      exact more_rangePort h hn hc

theorem more_parseAddress (h : More c c') {env : ParseEnv} {inp mask : Str} {result : List Range} {x : Bool × List Range} (hn : '\x00' ∉ inp)
    (hc : Clean c (parseAddress env inp mask result) x) : Clean c' (parseAddress env inp mask result) x := by
  have as4 : Clean c (parseAddress4 env inp result >>= fun l => (Pure.pure (true, l) : PM (Bool × List Range))) x →
      Clean c' (parseAddress4 env inp result >>= fun l => (Pure.pure (true, l) : PM (Bool × List Range))) x := by
    intro hc
    obtain ⟨l, h1, h2⟩ := clean_bind (logging_parseAddress4 _ _ _ _) (fun _ => logging_pure _ _) hc
    exact clean_join (more_parseAddress4 h hn h1) (clean_pure.2 (clean_pure.1 h2))
  have as6 : Clean c (parseAddress6 env inp (inp.count ':') result >>= fun l => (Pure.pure (false, l) : PM (Bool × List Range))) x →
      Clean c' (parseAddress6 env inp (inp.count ':') result >>= fun l => (Pure.pure (false, l) : PM (Bool × List Range))) x := by
    intro hc
    obtain ⟨l, h1, h2⟩ := clean_bind (logging_parseAddress6 _ _ _ _ _) (fun _ => logging_pure _ _) hc
    exact clean_join (more_parseAddress6 h hn h1) (clean_pure.2 (clean_pure.1 h2))
  unfold parseAddress at hc ⊢
  rw [clean_config] at hc ⊢
  dsimp only at hc ⊢
  rw [← h.requiredPort, ← h.address4, ← h.address6]
  split at hc
  · rename_i h1
    rw [if_pos h1]
    exact as6 hc
  rename_i h1
  rw [if_neg h1]
  split at hc
  · rename_i h2
    rw [if_pos h2]
    revert hc
    repeat' (first | exact as4 | exact as6 | split)
  rename_i h2
  rw [if_neg h2]
  split at hc
  · rename_i h3
    rw [if_pos h3]
    exact as6 hc
  rename_i h3
  rw [if_neg h3]
  have tail : Clean c' (if (!c'.flags .port && !c.flags .requiredPort) = true then
      match splitFirst ':' inp with
      | none => parseAddress4 env inp result >>= fun l => (Pure.pure (true, l) : PM (Bool × List Range))
      | some (before, _) => if '.' ∈ before then parseAddress4 env inp result >>= fun l => (Pure.pure (true, l) : PM (Bool × List Range))
        else parseAddress6 env inp (inp.count ':') result >>= fun l => (Pure.pure (false, l) : PM (Bool × List Range))
      else parseAddress4 env inp result >>= fun l => (Pure.pure (true, l) : PM (Bool × List Range))) x := by
    split at hc
    · rename_i hp
      split at hc
      · rename_i hs
        split
        · rw [hs]; exact as4 hc
        · exact as4 hc
      · rename_i before rest hs
        obtain ⟨e, hb⟩ := splitFirst_some hs
        split at hc
        · rename_i hd
          split
          · rw [hs]
            dsimp only
            rw [if_pos hd]
            exact as4 hc
          · exact as4 hc
        · rename_i hd
          exfalso
          obtain ⟨l, h4, _⟩ := clean_bind (logging_parseAddress6 _ _ _ _ _) (fun _ => logging_pure _ _) hc
          unfold parseAddress6 at h4
          have hcount : inp.count ':' = 1 := by
            have : 0 < inp.count ':' := List.count_pos_iff.2 (by rw [e]; simp)
            omega
          rw [clean_config, if_neg (fun h => h3 (.inl h)), if_pos hcount, hs] at h4
          dsimp only at h4
          have hne : before ≠ [] := by
            rintro rfl
            exact h2 (.inr (by rw [e]; rfl))
          have := ((clean_rangePort h.lookup (fun h => hn (by rw [e]; exact List.mem_append_left _ h)) h4).2 hne).1
          exact this.elim hd hb
    · rename_i hp
      rw [if_neg (fun h4 => hp (by
        rw [Bool.and_eq_true, Bool.not_eq_true'] at h4 ⊢
        refine ⟨Bool.eq_false_iff.2 fun h5 => ?_, h4.2⟩
        rw [h.port h5] at h4
        cases h4.1))]
      exact as4 hc
  exact tail

theorem more_addressMask (h : More c c') {env : ParseEnv} {mask : Str} {a : Addr} {v4 : Bool} {x : Option Bytes16}
    (hc : Clean c (addressMask env mask a v4) x) : Clean c' (addressMask env mask a v4) x := by
  cases hf : c.flags .addressMask with
  | false =>
    unfold addressMask at hc
    rw [clean_config, if_pos (by simp [hf])] at hc
    exact (clean_emit (f := fun _ => Pure.pure none) (logging_pure _ _) hc).elim
  | true =>
    have := rel_addressMask (hf.trans (h.addressMask hf).symm) env mask a v4
    intro p hp
    have h1 := hc { p with config := c } rfl
    obtain ⟨h2, h3, h4, h5, h6⟩ := this { p with config := c } p rfl hp rfl rfl
    rw [h1] at h2 h3 h4
    refine Prod.ext ?_ h2.symm
    rcases hq : addressMask env mask a v4 p with ⟨⟨q1, q2, q3⟩, r⟩
    rw [hq] at h3 h4 h6
    dsimp only at h3 h4 h6
    rw [← h3, ← h4, h6, ← hp]
    simp

theorem more_parseMask (h : More c c') {env : ParseEnv} {mask : Str} {a : Addr} {v4 : Bool} {x : Addr}
    (hc : Clean c (parseMask env mask a v4) x) : Clean c' (parseMask env mask a v4) x := by
  unfold parseMask at hc ⊢
  split at hc
  · rename_i h1
    rw [if_pos h1]
    exact clean_pure.2 (clean_pure.1 hc)
  · rename_i h1
    rw [if_neg h1]
    split at hc
    · exact (clean_emit (f := fun _ => Pure.pure a) (logging_pure _ _) hc).elim
    · split at hc
      · exact (clean_emit (f := fun _ => Pure.pure a) (logging_pure _ _) hc).elim
      · rename_i h2
        rw [if_neg h2]
        split at hc
        · exact (clean_emit (f := fun _ => Pure.pure a) (logging_pure _ _) hc).elim
        · rename_i h3
          rw [if_neg h3]
          obtain ⟨b, h4, h5⟩ := clean_bind (logging_lift _ _) (fun _ => logging_lift _ _) hc
          exact clean_join (clean_lift.2 (clean_lift.1 h4)) (clean_lift.2 (clean_lift.1 h5))
    · obtain ⟨b, h4, h5⟩ := clean_bind (logging_addressMask _ _ _ _ _) (fun _ => by repeat' logging_step) hc
      refine clean_join (more_addressMask h h4) ?_
      cases b with
      | none => exact clean_pure.2 (clean_pure.1 h5)
      | some b => exact clean_lift.2 (clean_lift.1 h5)

theorem more_maskLoop (h : More c c') {env : ParseEnv} {mask : Str} {v4 : Bool} {l x : List Range}
    (hc : Clean c (maskLoop env mask v4 l) x) : Clean c' (maskLoop env mask v4 l) x := by
  induction l generalizing x with
  | nil => exact clean_pure.2 (clean_pure.1 hc)
  | cons r l ih =>
    rw [maskLoop, clean_config] at hc ⊢
    have : chooseMask c' mask v4 = chooseMask c mask v4 := by simp only [chooseMask, h.mask4, h.mask6]
    rw [this]
    obtain ⟨a, h1, h2⟩ := clean_bind (logging_parseMask _ _ _ _ _)
      (fun _ => logging_bind (logging_maskLoop _ _ _ _ _) fun _ => logging_pure _ _) hc
    obtain ⟨y, h3, h4⟩ := clean_bind (logging_maskLoop _ _ _ _ _) (fun _ => logging_pure _ _) h2
    exact clean_join (more_parseMask h h1) (clean_join (ih h3) (clean_pure.2 (clean_pure.1 h4)))

theorem clean_parseCidr_mask (hm : c.flags .mask = true) {env : ParseEnv} {inp : Str} {result l : List Range} :
    Clean c (parseCidr env inp result) l ↔ ∃ v4 l1 l2,
      Clean c (parseAddress env ((splitFirst '/' (trimString inp)).getD (trimString inp, [])).1
        ((splitFirst '/' (trimString inp)).getD (trimString inp, [])).2 []) (v4, l1)
      ∧ Clean c (maskLoop env ((splitFirst '/' (trimString inp)).getD (trimString inp, [])).2 v4 l1) l2 ∧ l = result ++ l2 := by
  generalize ham : (splitFirst '/' (trimString inp)).getD (trimString inp, []) = am
  constructor
  · intro hc
    have h0 := hc { blank with config := c } rfl
    rw [parseCidr_mask env inp result _ hm, ham] at h0
    obtain ⟨e1, r1, h1⟩ := logging_parseAddress env c am.1 am.2 []
    dsimp only at h0
    rw [h1 _ rfl] at h0
    cases r1 with
    | throw e => cases congrArg Prod.snd h0
    | ub w => cases congrArg Prod.snd h0
    | ok x =>
      obtain ⟨v4, l1⟩ := x
      obtain ⟨e2, r2, h2⟩ := logging_maskLoop env c am.2 v4 l1
      dsimp only at h0
      rw [h2 _ rfl] at h0
      cases r2 with
      | throw e => cases congrArg Prod.snd h0
      | ub w => cases congrArg Prod.snd h0
      | ok l2 =>
        have h3 := congrArg (fun x => x.1.errorCount) h0
        simp only [emitAll, List.length_nil] at h3
        have e1n : e1 = [] := List.length_eq_zero_iff.1 (by omega)
        have e2n : e2 = [] := List.length_eq_zero_iff.1 (by omega)
        subst e1n e2n
        refine ⟨v4, l1, l2, h1, h2, ?_⟩
        have h4 := congrArg Prod.snd h0
        simp only [emitAll_nil, if_true] at h4
        exact (Res.ok.inj h4).symm
  · rintro ⟨v4, l1, l2, h1, h2, rfl⟩ p hp
    rw [parseCidr_mask env inp result p (by rw [hp]; exact hm), ham]
    dsimp only
    rw [h1 p hp]
    dsimp only [emitAll_nil]
    rw [emitAll_nil, h2 p hp]
    dsimp only
    rw [emitAll_nil, if_pos rfl]

theorem clean_parseCidr_nomask (hm : c.flags .mask = false) {env : ParseEnv} {inp : Str} {result l : List Range} :
    Clean c (parseCidr env inp result) l ↔ ∃ v4, Clean c (parseAddress env (trimString inp) [] result) (v4, l) := by
  constructor
  · intro hc
    have h0 := hc { blank with config := c } rfl
    rw [parseCidr_nomask env inp result _ hm] at h0
    obtain ⟨e1, r1, h1⟩ := logging_parseAddress env c (trimString inp) [] result
    rw [h1 _ rfl] at h0
    cases r1 with
    | throw e => cases congrArg Prod.snd h0
    | ub w => cases congrArg Prod.snd h0
    | ok x =>
      obtain ⟨v4, l1⟩ := x
      have h3 := congrArg (fun x => x.1.errorCount) h0
      simp only [emitAll, List.length_nil] at h3
      have e1n : e1 = [] := List.length_eq_zero_iff.1 (by omega)
      subst e1n
      obtain rfl := Res.ok.inj (congrArg Prod.snd h0)
      exact ⟨v4, h1⟩
  · rintro ⟨v4, h1⟩ p hp
    rw [parseCidr_nomask env inp result p (by rw [hp]; exact hm), h1 p hp]

/-- The texts with a slash are no ports. -/
def SlashNoPort (env : ParseEnv) : Prop := ∀ s : Str, '/' ∈ s → env.convert s = none

theorem clean_rangePort_slash (hl : c.flags .addressLookup = false) {env : ParseEnv} (henv : SlashNoPort env) {addresses port : Str} {v6 : Bool}
    {result l : List Range} (hn : '\x00' ∉ addresses) (hc : Clean c (parseAddressRangePort env addresses port result v6) l) :
    '/' ∉ addresses ∧ '/' ∉ port := by
  obtain ⟨h1, h2⟩ := clean_rangePort hl hn hc
  constructor
  · intro h3
    rcases (h2 (List.ne_nil_of_mem h3)).2 _ h3 with h4 | h4
    · exact absurd h4 (by decide)
    · exact absurd h4.1 (by decide)
  · intro h3
    have := h1 (List.ne_nil_of_mem h3)
    rw [henv _ h3] at this
    cases this

theorem clean_parseAddress_slash (hl : c.flags .addressLookup = false) {env : ParseEnv} (henv : SlashNoPort env) {inp mask : Str} {result : List Range}
    {x : Bool × List Range} (hn : '\x00' ∉ inp) (hc : Clean c (parseAddress env inp mask result) x) : '/' ∉ inp := by
  have as4 : Clean c (parseAddress4 env inp result >>= fun l => (Pure.pure (true, l) : PM (Bool × List Range))) x → '/' ∉ inp := by
    intro hc
    obtain ⟨l, h1, _⟩ := clean_bind (logging_parseAddress4 _ _ _ _) (fun _ => logging_pure _ _) hc
    unfold parseAddress4 at h1
    rw [clean_config] at h1
    split at h1
    · exact (clean_rangePort_slash hl henv hn h1).1
    · rename_i a b hs
      obtain ⟨rfl, _⟩ := splitFirst_some hs
      split at h1
      · have := clean_rangePort_slash hl henv (fun h => hn (List.mem_append_left _ h)) h1
        simp [this]
      · exact (clean_emit (f := fun _ => Pure.pure result) (logging_pure _ _) h1).elim
  have as6 : Clean c (parseAddress6 env inp (inp.count ':') result >>= fun l => (Pure.pure (false, l) : PM (Bool × List Range))) x → '/' ∉ inp := by
    intro hc
    obtain ⟨l, h1, _⟩ := clean_bind (logging_parseAddress6 _ _ _ _ _) (fun _ => logging_pure _ _) hc
    unfold parseAddress6 at h1
    rw [clean_config] at h1
    split at h1
    · rename_i hb
      obtain ⟨rest, rfl⟩ : ∃ rest, inp = '[' :: rest := by
        cases inp with
        | nil => cases hb
        | cons y t => exact ⟨t, by rw [Option.some.inj hb]⟩
      have hn' : '\x00' ∉ rest := fun h => hn (List.mem_cons_of_mem _ h)
      rw [List.drop_one, List.tail_cons] at h1
      split at h1
      · exact (clean_emit (f := fun _ => Pure.pure result) (logging_pure _ _) h1).elim
      · rename_i hs
        obtain ⟨rfl, _⟩ := splitFirst_some hs
        have := clean_rangePort_slash hl henv (fun h => hn' (List.mem_append_left _ h)) h1
        simp [this]
      · rename_i hs
        obtain ⟨rfl, _⟩ := splitFirst_some hs
        split at h1
        · exact (clean_emit (f := fun _ => Pure.pure result) (logging_pure _ _) h1).elim
        · rename_i hx
          obtain rfl := Decidable.not_not.1 hx
          split at h1
          · exact (clean_emit (f := fun _ => Pure.pure result) (logging_pure _ _) h1).elim
          · have := clean_rangePort_slash hl henv (fun h => hn' (List.mem_append_left _ h)) h1
            simp [this]
    · split at h1
      · split at h1
        · exact nomatch (clean_cases (logs_throw c _) h1).2
        · rename_i hs
          obtain ⟨rfl, _⟩ := splitFirst_some hs
          have := clean_rangePort_slash hl henv (fun h => hn (List.mem_append_left _ h)) h1
          simp [this]
      · exact (clean_rangePort_slash hl henv hn h1).1
  unfold parseAddress at hc
  rw [clean_config] at hc
  dsimp only at hc
  revert hc
  repeat' (first | exact as4 | exact as6 | split)

theorem trimString_sub {s : Str} {x : Char} (h : x ∈ trimString s) : x ∈ s := by
  unfold trimString at h
  rw [List.mem_reverse] at h
  have := (List.dropWhile_suffix _).subset h
  rw [List.mem_reverse] at this
  exact (List.dropWhile_suffix _).subset this

theorem more_parseCidr (h : More c c') {env : ParseEnv} (henv : SlashNoPort env) {inp : Str} {result l : List Range} (hn : '\x00' ∉ inp)
    (hc : Clean c (parseCidr env inp result) l) : Clean c' (parseCidr env inp result) l := by
  have hn' : '\x00' ∉ trimString inp := fun h => hn (trimString_sub h)
  have hsplit : '\x00' ∉ ((splitFirst '/' (trimString inp)).getD (trimString inp, [])).1 := by
    cases hs : splitFirst '/' (trimString inp) with
    | none => exact hn'
    | some x =>
      obtain ⟨a, b⟩ := x
      obtain ⟨e, _⟩ := splitFirst_some hs
      exact fun hm => hn' (by rw [e]; exact List.mem_append_left _ hm)
  cases hm : c.flags .mask with
  | true =>
    have hm' : c'.flags .mask = true := by
      rcases h.mask with h1 | h1
      · rw [← h1, hm]
      · exact h1.1
    obtain ⟨v4, l1, l2, h1, h2, rfl⟩ := (clean_parseCidr_mask hm).1 hc
    exact (clean_parseCidr_mask hm').2 ⟨v4, l1, l2, more_parseAddress h hsplit h1, more_maskLoop h h2, rfl⟩
  | false =>
    obtain ⟨v4, h1⟩ := (clean_parseCidr_nomask hm).1 hc
    have h2 := more_parseAddress h hn' h1
    cases hm' : c'.flags .mask with
    | false => exact (clean_parseCidr_nomask hm').2 ⟨v4, h2⟩
    | true =>
      obtain ⟨_, hd4, hd6⟩ := h.mask.resolve_left (by rw [hm, hm']; decide)
      have hslash := clean_parseAddress_slash h.lookup henv hn' h1
      rw [append_parseAddress] at h2
      obtain ⟨x, h3, h4⟩ := clean_bind (logging_parseAddress _ _ _ _ _) (fun _ => logging_pure _ _) h2
      have h4 := clean_pure.1 h4
      refine (clean_parseCidr_mask hm').2 ?_
      rw [splitFirst_none.2 hslash]
      refine ⟨x.1, x.2, x.2, h3, ?_, (congrArg Prod.snd h4).symm⟩
      have hno : ∀ v4, chooseMask c' [] v4 = [] := by
        intro v4
        rw [chooseMask, if_neg (not_not_intro rfl), hd4, hd6]
        cases v4 <;> rfl
      generalize x.1 = b
      generalize x.2 = m
      induction m with
      | nil => exact clean_pure.2 rfl
      | cons r m ih =>
        dsimp only [Option.getD_none]
        rw [maskLoop, clean_config, hno]
        exact clean_join (a := r.lo) (fun p _ => by rw [emitAll_nil]; rfl) (clean_join ih (clean_pure.2 rfl))

theorem more_parseUnsorted (h : More c c') (hsep : separators c' = separators c) (hcom : commentChars c' = commentChars c)
    (hf : c'.flags .multiAddressesNewlines = c.flags .multiAddressesNewlines) {env : ParseEnv} (henv : SlashNoPort env) {inp : Str} {l : List Range}
    (hn : '\x00' ∉ inp) (hc : Clean c (parseUnsorted env inp) l) : Clean c' (parseUnsorted env inp) l := by
  have hlist : ∀ (fuel : Nat) (rest : Str) (result l : List Range), '\x00' ∉ rest →
      Clean c (parseList env fuel rest result) l → Clean c' (parseList env fuel rest result) l := by
    intro fuel
    induction fuel with
    | zero => exact fun _ _ _ _ hc => clean_pure.2 (clean_pure.1 hc)
    | succ n ih =>
      intro rest result l hn hc
      have h1 : ∀ e, entryText c' e = entryText c e := fun e => by simp only [entryText, hcom]
      have h2 : ∀ e, skipLine c' e = skipLine c e := fun e => by simp only [skipLine, hcom, hf]
      have drop : ∀ (f : Char → Bool) (s : Str), '\x00' ∉ s → '\x00' ∉ s.dropWhile f := fun f s h h' => h ((List.dropWhile_suffix f).subset h')
      have take : ∀ (f : Char → Bool) (s : Str), '\x00' ∉ s → '\x00' ∉ s.takeWhile f := fun f s h h' => h ((List.takeWhile_prefix f).subset h')
      have hskip : ∀ s, '\x00' ∉ s → '\x00' ∉ (skipLine c s).drop 1 := by
        intro s h h'
        have h' := List.mem_of_mem_drop h'
        unfold skipLine at h'
        split at h'
        · exact drop _ _ h h'
        · exact h h'
      have hentry : ∀ s, '\x00' ∉ s → '\x00' ∉ entryText c s := by
        intro s h
        unfold entryText
        split
        · exact take _ _ h
        · exact h
      rw [parseList, clean_config] at hc ⊢
      dsimp only at hc ⊢
      rw [hsep, h1, h2]
      split at hc
      · rename_i h3
        rw [if_pos h3]
        exact clean_pure.2 (clean_pure.1 hc)
      · rename_i h3
        rw [if_neg h3]
        split at hc
        · rename_i h4
          rw [if_pos h4]
          obtain ⟨r, h5, h6⟩ := clean_bind (logging_parseEntry _ _ _ _) (fun _ => logging_parseList _ _ _ _ _) hc
          refine clean_join ?_ (ih _ _ _ (hskip _ (drop _ _ hn)) h6)
          rw [parseEntry] at h5 ⊢
          split at h5
          · rename_i h7
            rw [if_pos h7]
            exact more_parseCidr h henv (hentry _ (take _ _ hn)) h5
          · rename_i h7
            rw [if_neg h7]
            exact clean_pure.2 (clean_pure.1 h5)
        · rename_i h4
          rw [if_neg h4]
          exact ih _ _ _ (fun h' => drop _ _ hn (List.mem_of_mem_drop h')) hc
  rw [parseUnsorted, clean_config] at hc ⊢
  rw [hsep]
  split at hc
  · rename_i h1
    rw [if_pos h1]
    rw [parseSingle, clean_config] at hc ⊢
    have h2 : singleEnd c' inp = singleEnd c inp := by simp only [singleEnd, hcom]
    dsimp only at hc ⊢
    rw [h2]
    split at hc
    · rename_i h3
      rw [if_pos h3]
      obtain ⟨e, h4, h5⟩ := clean_bind (logging_lift _ _) (fun _ => logging_parseCidr _ _ _ _) hc
      refine clean_join (clean_lift.2 (clean_lift.1 h4)) (more_parseCidr h henv ?_ h5)
      have h4 := clean_lift.1 h4
      unfold substr at h4
      split at h4
      · cases h4
      · obtain rfl := Res.ok.inj h4
        exact fun h' => hn (List.mem_of_mem_drop (List.mem_of_mem_take h'))
    · rename_i h3
      rw [if_neg h3]
      exact more_parseCidr h henv hn hc
  · rename_i h1
    rw [if_neg h1]
    exact hlist _ _ _ _ hn hc

theorem more_parse (h : More c c') (hsep : separators c' = separators c) (hcom : commentChars c' = commentChars c)
    (hf : c'.flags .multiAddressesNewlines = c.flags .multiAddressesNewlines) {env : ParseEnv} (henv : SlashNoPort env) {inp : Str} {l : List Range}
    (hn : '\x00' ∉ inp) (hc : Clean c (parse env inp) l) : Clean c' (parse env inp) l := by
  rw [parse, clean_config] at hc ⊢
  obtain ⟨x, h1, h2⟩ := clean_bind (logging_parseUnsorted _ _ _) (fun _ => logging_lift _ _) hc
  rw [← h.sort]
  exact clean_join (more_parseUnsorted h hsep hcom hf henv hn h1) (clean_lift.2 (clean_lift.1 h2))

end
end Verif.Parser
