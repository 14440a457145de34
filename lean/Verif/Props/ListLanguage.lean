import Verif.Props.MaskDefault

/-!
# Property C91: the language of the parser of lists
-/

namespace Verif

open Spec

/-- A parser of lists, without lookups, comments, ranges and sorting; the masks are numbers of bits and there is no default mask. -/
structure ReadsList (p : Parser) : Prop where
  lookup : p.config.flags .addressLookup = false
  range : p.config.flags .addressRange = false
  protocol : p.config.protocol = -1 ∨ p.config.protocol = IPPROTO_IP ∨ p.config.protocol = IPPROTO_TCP ∨ p.config.protocol = IPPROTO_UDP
  list : ListMode p
  comments : NoComments p
  sort : Unsorted p
  addressMask : p.config.flags .addressMask = false
  default4 : p.config.defaultMask4 = []
  default6 : p.config.defaultMask6 = []
  nul4 : '\x00' ∉ p.config.defaultAddress4
  nul6 : '\x00' ∉ p.config.defaultAddress6

/-- The items of a list: what is between the separators, without what is empty. -/
def items (p : Parser) (inp : Str) : List Str := (fields (separates p) inp).filter (· ≠ [])

/-- The item writes the address `n`, the port and a mask of `k` ones. -/
inductive Item (env : ParseEnv) (p : Parser) (e : Str) (n port k : Nat) : Prop
  /-- Without masks: an address. -/
  | address {t u q : Str} (hm : p.config.flags .mask = false) (hk : k = 128) (ht : Trims e t) (he : Entry (PortsAllowed p) t u q)
    (ha : AddressOf u n) (hq : PortOf env p.config q port)
  /-- Without masks: the address is left out. -/
  | leftOut {t q : Str} (hm : p.config.flags .mask = false) (hk : k = 128) (ht : Trims e t) (hr : p.config.flags .requiredAddress = false)
    (he : NoAddress p t q) (ha : AddressOf (defaultText p.config t) n) (hq : PortOf env p.config q port)
  /-- With masks: an address and its mask. -/
  | network {t a m u q : Str} (hm : p.config.flags .mask = true) (ht : Trims e t) (hc : CutMask t a m) (he : Entry (PortsAllowed p) a u q)
    (ha : AddressOf u n) (hq : PortOf env p.config q port) (hk : MaskOf a m k)
  /-- With masks: a mask, the address is left out. -/
  | maskOnly {t a m u q : Str} (hm : p.config.flags .mask = true) (ht : Trims e t) (hc : CutMask t a m)
    (hr : p.config.flags .requiredAddress = false) (he : NoAddressMask p a m q) (hu : DefaultUsed p.config a m u) (ha : AddressOf u n)
    (hq : PortOf env p.config q port) (hk : DefaultMaskOf p.config a m n k)

/-- What the items of a list write, those which write nothing left out, and how many of these there are. -/
inductive Written (env : ParseEnv) (p : Parser) : List Str → List (Nat × Nat × Nat) → Nat → Prop
  | nil : Written env p [] [] 0
  | item {e : Str} {n port k : Nat} {es : List Str} {l : List (Nat × Nat × Nat)} {c : Nat} (h : Item env p e n port k) (t : Written env p es l c) :
    Written env p (e :: es) ((n, port, k) :: l) c
  | error {e : Str} {es : List Str} {l : List (Nat × Nat × Nat)} {c : Nat} (h : ¬ ∃ n port k, Item env p e n port k) (t : Written env p es l c) :
    Written env p (e :: es) l (c + 1)

/-- The address, the port and the mask of a result. -/
def resultOf (r : Range) : Nat × Nat × Nat := (ip r.lo.getIpv6.addr, r.lo.getPort, ip r.lo.getMask)

/-! ### The vocabulary above in terms of the model -/

theorem takeWhile_all (f : Char → Bool) : ∀ s : Str, ∀ c ∈ s.takeWhile f, f c = true
  | [], c, hc => nomatch hc
  | x :: s, c, hc => by
    rw [List.takeWhile_cons] at hc
    split at hc
    · rename_i hx
      rcases List.mem_cons.1 hc with rfl | hc
      · exact hx
      · exact takeWhile_all f s c hc
    · cases hc

theorem trims_trim (s : Str) : Trims s (Parser.trimString s) := by
  obtain ⟨y, h1, h2⟩ := Parser.rtrim_append (s.dropWhile Parser.isSpace)
  rw [← Parser.trimString_eq] at h1
  have hlast (c : Char) (hc : (Parser.trimString s).getLast? = some c) : Parser.isSpace c = false := by
    rw [Parser.trimString, List.getLast?_reverse] at hc
    have := List.head?_dropWhile_not Parser.isSpace (s.dropWhile Parser.isSpace).reverse
    rw [hc] at this
    simpa using this
  have hfirst (c : Char) (hc : (Parser.trimString s).head? = some c) : Parser.isSpace c = false := by
    have h3 : (s.dropWhile Parser.isSpace).head? = some c := by
      rw [h1]
      cases ht : Parser.trimString s with
      | nil => rw [ht] at hc; cases hc
      | cons x t => rw [ht] at hc; exact hc
    have := List.head?_dropWhile_not Parser.isSpace s
    rw [h3] at this
    simpa using this
  refine ⟨s.takeWhile Parser.isSpace, y, ?_, ?_, fun c hc => (isSpace_mem c).1 (h2 c hc), ?_, ?_⟩
  · rw [List.append_assoc, ← h1, List.takeWhile_append_dropWhile]
  · exact fun c hc => (isSpace_mem c).1 (takeWhile_all _ _ c hc)
  · exact fun c hc h3 => absurd (hfirst c hc) (by rw [(isSpace_mem c).2 h3]; decide)
  · exact fun c hc h3 => absurd (hlast c hc) (by rw [(isSpace_mem c).2 h3]; decide)

theorem cutMask_ex (t : Str) : ∃ e m, CutMask t e m := by
  induction t with
  | nil => exact ⟨[], [], by simp, .inl ⟨rfl, rfl⟩⟩
  | cons x t ih =>
    by_cases hx : x = '/'
    · exact ⟨[], t, by simp, .inr (by rw [hx]; rfl)⟩
    · obtain ⟨e, m, h1, h2⟩ := ih
      refine ⟨x :: e, m, ?_, ?_⟩
      · intro h3
        rcases List.mem_cons.1 h3 with h3 | h3
        · exact hx h3.symm
        · exact h1 h3
      · rcases h2 with ⟨rfl, h2⟩ | rfl
        · exact .inl ⟨rfl, h2⟩
        · exact .inr rfl

theorem fields_sub (sep : Char → Bool) : ∀ (s f : Str), f ∈ fields sep s → ∀ c ∈ f, c ∈ s
  | [], f, hf, c, hc => by
    simp only [fields, List.mem_singleton] at hf
    rw [hf] at hc
    cases hc
  | x :: s, f, hf, c, hc => by
    rw [fields] at hf
    have ih := fields_sub sep s
    split at hf
    · rcases List.mem_cons.1 hf with rfl | hf
      · cases hc
      · exact List.mem_cons_of_mem _ (ih f hf c hc)
    · rcases List.mem_cons.1 hf with rfl | hf
      · rcases List.mem_cons.1 hc with rfl | hc
        · exact List.mem_cons_self
        · cases hfs : fields sep s with
          | nil => rw [hfs] at hc; cases hc
          | cons g gs =>
            rw [hfs] at hc
            exact List.mem_cons_of_mem _ (ih g (by rw [hfs]; exact List.mem_cons_self) c hc)
      · exact List.mem_cons_of_mem _ (ih f (List.mem_of_mem_tail hf) c hc)

section
variable {env : ParseEnv} {p : Parser}

theorem reads_one (h : ReadsList p) {e : Str} (ho : OneEntry p e) (hm : p.config.flags .mask = false) : ReadsOne p e :=
  ⟨h.lookup, hm, .inl h.range, h.protocol, ho, h.sort⟩

theorem reads_mask (h : ReadsList p) {e : Str} (ho : OneEntry p e) (hm : p.config.flags .mask = true) : ReadsMask p e :=
  ⟨h.lookup, hm, h.addressMask, .inl h.range, h.protocol, ho, h.sort, h.default4, h.default6⟩

theorem item_accepted (h : ReadsList p) {e : Str} (ho : OneEntry p e) {n port k : Nat} (hi : Item env p e n port k) :
    ∃ r, Parser.parse env e p = (p, .ok [r]) ∧ r.hasFrom = true ∧ r.hasTo = false ∧ resultOf r = (n, port, prefixMask k) := by
  cases hi with
  | address hm hk ht he ha hq =>
    obtain ⟨r, h1, h2, h3, h4, h5, h6, _⟩ := C79_accepted env p e _ _ _ n port (reads_one h ho hm) ht he ha hq
    subst hk
    exact ⟨r, h1, h2, h3, by rw [resultOf, h4, h5, h6]; rfl⟩
  | leftOut hm hk ht hr he ha hq =>
    obtain ⟨r, h1, h2, h3, h4, h5, h6, _⟩ := C81_default env p e _ _ n port (reads_one h ho hm) ht hr he ha hq
    subst hk
    exact ⟨r, h1, h2, h3, by rw [resultOf, h4, h5, h6]; rfl⟩
  | network hm ht hc he ha hq hk =>
    obtain ⟨r, h1, h2, h3, h4, h5, h6, _⟩ := C88_accepted env p e _ _ _ _ _ n port k (reads_mask h ho hm) ht hc he ha hq hk
    exact ⟨r, h1, h2, h3, by rw [resultOf, h4, h5, h6]⟩
  | maskOnly hm ht hc hr he hu ha hq hk =>
    obtain ⟨r, h1, h2, h3, h4, h5, h6, _⟩ := C90_accepted env p e _ _ _ _ _ n port k (reads_mask h ho hm) ht hc hr he hu ha hq hk
    exact ⟨r, h1, h2, h3, by rw [resultOf, h4, h5, h6]⟩

theorem item_refused (h : ReadsList p) {e : Str} (ho : OneEntry p e) (hnul : '\x00' ∉ e) (hi : ¬ ∃ n port k, Item env p e n port k) :
    (Parser.parse env e p).2 = .ok [] ∧ (Parser.parse env e p).1.getErrorCount = p.getErrorCount + 1 := by
  have ht := trims_trim e
  have hn : '\x00' ∉ Parser.trimString e := fun h1 => hnul (trims_mem ht _ h1)
  cases hm : p.config.flags .mask with
  | false =>
    by_cases hl : p.config.flags .requiredAddress = true ∨ ¬ LeftOut (Parser.trimString e)
    · obtain ⟨p', h1, _, h2, _⟩ := C79_refused env p e _ (reads_one h ho hm) ht hn hl (fun ⟨u, q, n, port, h1, h2, h3⟩ =>
        hi ⟨n, port, 128, .address hm rfl ht h1 h2 h3⟩)
      rw [h1]
      exact ⟨rfl, h2⟩
    · obtain ⟨h3, h4⟩ := not_or.1 hl
      have h3 : p.config.flags .requiredAddress = false := by simpa using h3
      obtain ⟨p', h1, _, h2, _⟩ := C81_refused env p e _ (reads_one h ho hm) ht (Classical.not_not.1 h4) h3 h.nul4 h.nul6
        (fun ⟨q, n, port, h1, h2, h5⟩ => hi ⟨n, port, 128, .leftOut hm rfl ht h3 h1 h2 h5⟩)
      rw [h1]
      exact ⟨rfl, h2⟩
  | true =>
    obtain ⟨a, m, hc⟩ := cutMask_ex (Parser.trimString e)
    by_cases hl : p.config.flags .requiredAddress = true ∨ ¬ LeftOut a
    · obtain ⟨p', h1, _, h2, _⟩ := C88_refused env p e _ a m (reads_mask h ho hm) ht hc hn hl (fun ⟨u, q, n, port, k, h1, h2, h3, h4⟩ =>
        hi ⟨n, port, k, .network hm ht hc h1 h2 h3 h4⟩)
      rw [h1]
      exact ⟨rfl, h2⟩
    · obtain ⟨h3, h4⟩ := not_or.1 hl
      have h3 : p.config.flags .requiredAddress = false := by simpa using h3
      obtain ⟨p', h1, _, h2, _⟩ := C90_refused env p e _ a m (reads_mask h ho hm) ht hc (Classical.not_not.1 h4) h3 hn h.nul4 h.nul6
        (fun ⟨u, q, n, port, k, h1, h2, h5, h6, h7⟩ => hi ⟨n, port, k, .maskOnly hm ht hc h3 h1 h2 h5 h6 h7⟩)
      rw [h1]
      exact ⟨rfl, h2⟩

theorem items_one (h : ReadsList p) {inp e : Str} (he : e ∈ items p inp) : OneEntry p e := by
  rw [items, List.mem_filter] at he
  exact ⟨by simpa using he.2, fields_mem _ _ _ he.1, h.comments⟩

theorem items_nul {inp e : Str} (hnul : '\x00' ∉ inp) (he : e ∈ items p inp) : '\x00' ∉ e := by
  rw [items, List.mem_filter] at he
  exact fun h => hnul (fields_sub _ _ _ he.1 _ h)

theorem written_each (h : ReadsList p) {es : List Str} (hes : ∀ e ∈ es, OneEntry p e ∧ '\x00' ∉ e) {l : List (Nat × Nat × Nat)} {c : Nat}
    (hw : Written env p es l c) : ∀ q : Parser, q.config = p.config → ∃ errs rs, parseEach env es q = (Parser.emitAll errs q, .ok rs)
      ∧ errs.length = c ∧ (∀ r ∈ rs, r.hasFrom = true ∧ r.hasTo = false) ∧ rs.map resultOf = l.map fun x => (x.1, x.2.1, prefixMask x.2.2) := by
  induction hw with
  | nil => exact fun q _ => ⟨[], [], by rw [Parser.emitAll_nil]; rfl, rfl, (fun _ h => nomatch h), rfl⟩
  | @item e n port k es l c hi _ ih =>
    intro q hq
    obtain ⟨errs, r, hlog⟩ := Parser.logging_parse env p.config e
    obtain ⟨x, h1, h2, h3, h4⟩ := item_accepted h (hes e List.mem_cons_self).1 hi
    have hp := hlog p rfl
    rw [h1] at hp
    obtain rfl : .ok [x] = r := congrArg Prod.snd hp
    have herr : errs = [] := by
      have := congrArg (fun y => Parser.errorCount y.1) hp
      simp only [Parser.emitAll] at this
      exact List.eq_nil_of_length_eq_zero (by omega)
    subst herr
    obtain ⟨errs, rs, i1, i2, i3, i4⟩ := ih (fun e he => hes e (List.mem_cons_of_mem _ he)) q hq
    refine ⟨errs, x :: rs, ?_, i2, ?_, ?_⟩
    · rw [parseEach, hlog q hq, Parser.emitAll_nil]
      dsimp only
      rw [i1]
      rfl
    · intro r hr
      rcases List.mem_cons.1 hr with rfl | hr
      · exact ⟨h2, h3⟩
      · exact i3 r hr
    · rw [List.map_cons, List.map_cons, i4, h4]
  | @error e es l c hi _ ih =>
    intro q hq
    obtain ⟨errs, r, hlog⟩ := Parser.logging_parse env p.config e
    obtain ⟨h1, h2⟩ := item_refused h (hes e List.mem_cons_self).1 (hes e List.mem_cons_self).2 hi
    rw [hlog p rfl] at h1 h2
    obtain rfl : r = .ok [] := h1
    have herr : errs.length = 1 := by
      simp only [Parser.emitAll, Parser.getErrorCount] at h2
      omega
    obtain ⟨errs', rs, i1, i2, i3, i4⟩ := ih (fun e he => hes e (List.mem_cons_of_mem _ he)) (Parser.emitAll errs q) hq
    refine ⟨errs ++ errs', rs, ?_, by rw [List.length_append]; omega, i3, i4⟩
    rw [parseEach, hlog q hq]
    dsimp only
    rw [i1, Parser.emitAll_append]
    rfl

end

theorem item_le {env : ParseEnv} {p : Parser} {e : Str} {n port k : Nat} (hi : Item env p e n port k) : k ≤ 128 := by
  cases hi with
  | address _ hk => omega
  | leftOut _ hk => omega
  | @network t a m u q _ _ _ _ _ _ hk =>
    rcases hk with ⟨_, rfl⟩ | ⟨_, _, h6, rfl⟩
    · omega
    · have : entryBits a ≤ 128 := by
        rw [entryBits]
        split <;> omega
      omega
  | @maskOnly t a m u q _ _ _ _ _ _ _ _ hk =>
    rcases hk with ⟨_, rfl⟩ | ⟨m0, _, h6, ⟨rfl, _⟩ | ⟨rfl, h7, _⟩⟩
    · omega
    · omega
    · have : ¬ 32 < maskNumber m := fun h8 => h7 (.inr (.inl ⟨m0, h8⟩))
      omega

theorem item_network {env : ParseEnv} {p : Parser} (h : ReadsList p) {e : Str} (ho : OneEntry p e) {n port k : Nat} (hi : Item env p e n port k) :
    ∃ r, Parser.parse env e p = (p, .ok [r]) ∧ ∀ a : Addr, r.matchAddr a = .ok true ↔ InNetwork (ip a.getIpv6.addr) n k := by
  obtain ⟨r, h1, h2, h3, h4⟩ := item_accepted h ho hi
  have e1 : ip r.lo.getIpv6.addr = n := congrArg (·.1) h4
  have e2 : ip r.lo.getMask = prefixMask k := congrArg (·.2.2) h4
  exact ⟨r, h1, fun a => network_match ⟨h2, h3, e1, item_le hi, e2⟩ a⟩

/-- The networks written are those of the items. -/
theorem written_networks {env : ParseEnv} {p : Parser} (h : ReadsList p) {es : List Str} (hes : ∀ e ∈ es, OneEntry p e)
    {l : List (Nat × Nat × Nat)} {c : Nat} (hw : Written env p es l c) (a : Addr) :
    (∃ x ∈ l, InNetwork (ip a.getIpv6.addr) x.1 x.2.2)
      ↔ ∃ e ∈ es, ∃ n port k, Item env p e n port k ∧ InNetwork (ip a.getIpv6.addr) n k := by
  induction hw with
  | nil => exact ⟨(fun ⟨_, h, _⟩ => nomatch h), (fun ⟨_, h, _⟩ => nomatch h)⟩
  | @item e n port k es l c hi _ ih =>
    have ih := ih fun e he => hes e (List.mem_cons_of_mem _ he)
    constructor
    · rintro ⟨x, hx, ha⟩
      rcases List.mem_cons.1 hx with rfl | hx
      · exact ⟨e, List.mem_cons_self, n, port, k, hi, ha⟩
      · obtain ⟨e', h1, h2⟩ := ih.1 ⟨x, hx, ha⟩
        exact ⟨e', List.mem_cons_of_mem _ h1, h2⟩
    · rintro ⟨e', he', n', port', k', hi', ha⟩
      rcases List.mem_cons.1 he' with rfl | he'
      · obtain ⟨r, h1, h2⟩ := item_network h (hes _ List.mem_cons_self) hi
        obtain ⟨r', h1', h2'⟩ := item_network h (hes _ List.mem_cons_self) hi'
        rw [h1] at h1'
        obtain rfl : r = r' := by
          injection congrArg Prod.snd h1' with h3
          exact (List.cons.inj h3).1
        exact ⟨_, List.mem_cons_self, (h2 a).1 ((h2' a).2 ha)⟩
      · obtain ⟨x, h1, h2⟩ := ih.2 ⟨e', he', n', port', k', hi', ha⟩
        exact ⟨x, List.mem_cons_of_mem _ h1, h2⟩
  | @error e es l c hi _ ih =>
    rw [ih fun e he => hes e (List.mem_cons_of_mem _ he)]
    constructor
    · rintro ⟨e', h1, h2⟩
      exact ⟨e', List.mem_cons_of_mem _ h1, h2⟩
    · rintro ⟨e', h1, n, port, k, h2, h3⟩
      rcases List.mem_cons.1 h1 with rfl | h1
      · exact absurd ⟨n, port, k, h2⟩ hi
      · exact ⟨e', h1, n, port, k, h2, h3⟩

theorem written_le {env : ParseEnv} {p : Parser} {es : List Str} {l : List (Nat × Nat × Nat)} {c : Nat} (hw : Written env p es l c) :
    ∀ x ∈ l, x.2.2 ≤ 128 := by
  induction hw with
  | nil => exact (fun _ h => nomatch h)
  | item hi _ ih =>
    intro x hx
    rcases List.mem_cons.1 hx with rfl | hx
    · exact item_le hi
    · exact ih x hx
  | error _ _ ih => exact ih

/-! ### C91 -/

/-- C91: every list writes something. -/
theorem C91_total (env : ParseEnv) (p : Parser) : ∀ es : List Str, ∃ l c, Written env p es l c
  | [] => ⟨[], 0, .nil⟩
  | e :: es => by
    obtain ⟨l, c, h⟩ := C91_total env p es
    by_cases hi : ∃ n port k, Item env p e n port k
    · obtain ⟨n, port, k, hi⟩ := hi
      exact ⟨_, _, .item hi h⟩
    · exact ⟨_, _, .error hi h⟩

/-- C91: the list is read as what its items write, in their order; there is one error for each of the others. -/
theorem C91_list (env : ParseEnv) (p : Parser) (inp : Str) (l : List (Nat × Nat × Nat)) (c : Nat) (h : ReadsList p) (hnul : '\x00' ∉ inp)
    (hw : Written env p (items p inp) l c) :
    ∃ p' rs, Parser.parse env inp p = (p', .ok rs) ∧ p'.config = p.config ∧ p'.getErrorCount = p.getErrorCount + c
      ∧ (c = 0 → p' = p) ∧ (∀ r ∈ rs, r.hasFrom = true ∧ r.hasTo = false)
      ∧ rs.map resultOf = l.map fun x => (x.1, x.2.1, prefixMask x.2.2) := by
  obtain ⟨errs, rs, h1, h2, h3, h4⟩ := written_each h (fun e he => ⟨items_one h he, items_nul hnul he⟩) hw p rfl
  refine ⟨Parser.emitAll errs p, rs, ?_, rfl, ?_, ?_, h3, h4⟩
  · rw [C41_entrywise env inp p h.list h.comments h.sort]
    exact h1
  · simp only [Parser.emitAll, Parser.getErrorCount, h2]
  · intro h0
    rw [h0] at h2
    rw [List.eq_nil_of_length_eq_zero h2, Parser.emitAll_nil]

theorem written_none {env : ParseEnv} {p : Parser} {es : List Str} {l : List (Nat × Nat × Nat)} {c : Nat} (hw : Written env p es l c) :
    c = 0 ↔ ∀ e ∈ es, ∃ n port k, Item env p e n port k := by
  induction hw with
  | nil => exact ⟨(fun _ _ h => nomatch h), fun _ => rfl⟩
  | item hi _ ih =>
    rw [ih]
    refine ⟨fun h e he => ?_, fun h e he => h e (List.mem_cons_of_mem _ he)⟩
    rcases List.mem_cons.1 he with rfl | he
    · exact ⟨_, _, _, hi⟩
    · exact h e he
  | error hi _ _ => exact ⟨fun h => by omega, fun h => absurd (h _ List.mem_cons_self) hi⟩

/-- C91: there is no error exactly when every item writes an address. -/
theorem C91_no_error_iff (env : ParseEnv) (p : Parser) (inp : Str) (h : ReadsList p) (hnul : '\x00' ∉ inp) :
    (Parser.parse env inp p).1.getErrorCount = p.getErrorCount ↔ ∀ e ∈ items p inp, ∃ n port k, Item env p e n port k := by
  obtain ⟨l, c, hw⟩ := C91_total env p (items p inp)
  obtain ⟨p', rs, h1, _, h2, _⟩ := C91_list env p inp l c h hnul hw
  rw [h1, ← written_none hw]
  dsimp only
  omega

/-- Ranges with the results written match the networks of the items. -/
theorem written_match {env : ParseEnv} {p : Parser} (h : ReadsList p) {es : List Str} (hes : ∀ e ∈ es, OneEntry p e)
    {l : List (Nat × Nat × Nat)} {c : Nat} (hw : Written env p es l c) {rs : List Range} (h2 : ∀ r ∈ rs, r.hasFrom = true ∧ r.hasTo = false)
    (h3 : rs.map resultOf = l.map fun x => (x.1, x.2.1, prefixMask x.2.2)) (a : Addr) : ∃ b, addressMatchRanges rs a = .ok b
      ∧ (b = true ↔ ∃ e ∈ es, ∃ n port k, Item env p e n port k ∧ InNetwork (ip a.getIpv6.addr) n k) := by
  obtain ⟨b, h6, h7⟩ := C35_any_range rs a
  refine ⟨b, h6, h7.trans ?_⟩
  rw [← written_networks h hes hw a]
  constructor
  · rintro ⟨r, hr, hm⟩
    have : resultOf r ∈ l.map fun x => (x.1, x.2.1, prefixMask x.2.2) := by
      rw [← h3]
      exact List.mem_map_of_mem hr
    obtain ⟨x, hx, e⟩ := List.mem_map.1 this
    have e1 : ip r.lo.getIpv6.addr = x.1 := congrArg (·.1) e.symm
    have e2 : ip r.lo.getMask = prefixMask x.2.2 := congrArg (·.2.2) e.symm
    exact ⟨x, hx, (network_match ⟨(h2 r hr).1, (h2 r hr).2, e1, written_le hw x hx, e2⟩ a).1 hm⟩
  · rintro ⟨x, hx, ha⟩
    have : (x.1, x.2.1, prefixMask x.2.2) ∈ rs.map resultOf := by
      rw [h3]
      exact List.mem_map.2 ⟨x, hx, rfl⟩
    obtain ⟨r, hr, e⟩ := List.mem_map.1 this
    have e1 : ip r.lo.getIpv6.addr = x.1 := congrArg (·.1) e
    have e2 : ip r.lo.getMask = prefixMask x.2.2 := congrArg (·.2.2) e
    exact ⟨r, hr, (network_match ⟨(h2 r hr).1, (h2 r hr).2, e1, written_le hw x hx, e2⟩ a).2 ha⟩

/-- C91: the result is matched by the addresses of the networks written. -/
theorem C91_matches (env : ParseEnv) (p : Parser) (inp : Str) (h : ReadsList p) (hnul : '\x00' ∉ inp) :
    ∃ p' rs, Parser.parse env inp p = (p', .ok rs) ∧ ∀ a : Addr, ∃ b, addressMatchRanges rs a = .ok b
      ∧ (b = true ↔ ∃ e ∈ items p inp, ∃ n port k, Item env p e n port k ∧ InNetwork (ip a.getIpv6.addr) n k) := by
  obtain ⟨l, c, hw⟩ := C91_total env p (items p inp)
  obtain ⟨p', rs, h1, _, _, _, h2, h3⟩ := C91_list env p inp l c h hnul hw
  exact ⟨p', rs, h1, fun a => written_match h (fun e he => items_one h he) hw h2 h3 a⟩

/-- C91: the validator of lists, whatever else is allowed but comments, accepts the values of which it accepts every item alone. -/
theorem C91_validator (env : Validator.Env) (data : List Str) (v : Parser) (n : Nat) (h : Validator.create env data = .ok (v, n))
    (hl : allowedByOptions env.split data .multiAddressesCommas ∨ allowedByOptions env.split data .multiAddressesSpaces
      ∨ allowedByOptions env.split data .multiAddressesNewlines)
    (hc : ¬ allowedByOptions env.split data .commentHash ∧ ¬ allowedByOptions env.split data .commentSemicolon)
    (calls : List (ParseEnv × Str)) (penv : ParseEnv) (value : Str) :
    (∃ m, (Validator.validate penv value (Validator.validateAll calls v)).2 = .ok (true, m))
      ↔ ∀ e ∈ items v value, ∃ m, (Validator.validate penv e (Validator.validateAll calls v)).2 = .ok (true, m) := by
  have hlist : ListMode v := by
    unfold ListMode
    rw [C69_allowed_iff env data v n h, C69_allowed_iff env data v n h, C69_allowed_iff env data v n h]
    exact hl
  have hcom : NoComments v := ⟨created_off h hc.1, created_off h hc.2⟩
  have hv : v.error = [] := (created_rest h).2.2.1
  have hempty : ∀ errs, (Parser.emitAll errs v).hasErrors = false ↔ errs = [] := by
    intro errs
    rw [Parser.hasErrors, Parser.emitAll, hv]
    cases errs with
    | nil => simp
    | cons x l => simp
  -- valid is read without an error
  have valid (e : Str) : (∃ m, (Validator.validate penv e (Validator.validateAll calls v)).2 = .ok (true, m))
      ↔ ∃ l, Parser.parse penv e v = (v, .ok l) := by
    rw [C55_valid_iff env data v n h]
    obtain ⟨errs, r, hlog⟩ := Parser.logging_parse penv v.config e
    rw [hlog v rfl]
    dsimp only
    rw [hempty]
    constructor
    · rintro ⟨⟨l, rfl⟩, rfl⟩
      exact ⟨l, by rw [Parser.emitAll_nil]⟩
    · rintro ⟨l, h1⟩
      refine ⟨⟨l, congrArg Prod.snd h1⟩, ?_⟩
      rw [← hempty, show Parser.emitAll errs v = v from congrArg Prod.fst h1, Parser.hasErrors, hv]
      rfl
  rw [valid, C41_entrywise penv value v hlist hcom (created_unsorted h)]
  show (∃ l, parseEach penv (items v value) v = (v, .ok l)) ↔ _
  generalize items v value = es
  -- the errors of the items are put together
  have logging : ∀ es : List Str, ∃ errs r, ∀ p : Parser, p.config = v.config → parseEach penv es p = (Parser.emitAll errs p, r) := by
    intro es
    induction es with
    | nil => exact ⟨[], .ok [], fun p _ => by rw [Parser.emitAll_nil]; rfl⟩
    | cons e es ih =>
      obtain ⟨errs', r', ih⟩ := ih
      obtain ⟨errs, r, hlog⟩ := Parser.logging_parse penv v.config e
      cases r with
      | ok l =>
        cases r' with
        | ok l' =>
          refine ⟨errs ++ errs', .ok (l ++ l'), fun p hp => ?_⟩
          rw [parseEach, hlog p hp]
          dsimp only
          rw [ih (Parser.emitAll errs p) hp, Parser.emitAll_append]
        | throw x =>
          refine ⟨errs ++ errs', .throw x, fun p hp => ?_⟩
          rw [parseEach, hlog p hp]
          dsimp only
          rw [ih (Parser.emitAll errs p) hp, Parser.emitAll_append]
        | ub w =>
          refine ⟨errs ++ errs', .ub w, fun p hp => ?_⟩
          rw [parseEach, hlog p hp]
          dsimp only
          rw [ih (Parser.emitAll errs p) hp, Parser.emitAll_append]
      | throw x => exact ⟨errs, .throw x, fun p hp => by rw [parseEach, hlog p hp]⟩
      | ub w => exact ⟨errs, .ub w, fun p hp => by rw [parseEach, hlog p hp]⟩
  induction es with
  | nil => exact ⟨(fun _ _ h => nomatch h), fun _ => ⟨[], rfl⟩⟩
  | cons e es ih =>
    obtain ⟨errs, r, hlog⟩ := Parser.logging_parse penv v.config e
    obtain ⟨errs', r', hlog'⟩ := logging es
    have hsplit : (∃ l, parseEach penv (e :: es) v = (v, .ok l))
        ↔ (∃ l, Parser.parse penv e v = (v, .ok l)) ∧ ∃ l, parseEach penv es v = (v, .ok l) := by
      constructor
      · rintro ⟨l, h1⟩
        rw [parseEach, hlog v rfl] at h1
        cases r with
        | ok l1 =>
          dsimp only at h1
          rw [hlog' (Parser.emitAll errs v) rfl, ← Parser.emitAll_append] at h1
          cases r' with
          | ok l2 =>
            dsimp only at h1
            have h2 : Parser.emitAll (errs ++ errs') v = v := congrArg Prod.fst h1
            have h3 : errs ++ errs' = [] := by
              rw [← hempty, h2, Parser.hasErrors, hv]
              rfl
            obtain ⟨rfl, rfl⟩ := List.append_eq_nil_iff.1 h3
            refine ⟨⟨l1, by rw [hlog v rfl, Parser.emitAll_nil]⟩, l2, by rw [hlog' v rfl, Parser.emitAll_nil]⟩
          | throw x => cases congrArg Prod.snd h1
          | ub w => cases congrArg Prod.snd h1
        | throw x => cases congrArg Prod.snd h1
        | ub w => cases congrArg Prod.snd h1
      · rintro ⟨⟨l1, h1⟩, l2, h2⟩
        refine ⟨l1 ++ l2, ?_⟩
        rw [parseEach, h1]
        dsimp only
        rw [h2]
    refine (hsplit.trans (and_congr (valid e).symm ih)).trans ?_
    constructor
    · rintro ⟨h1, h2⟩ e' he'
      rcases List.mem_cons.1 he' with rfl | he'
      · exact h1
      · exact h2 e' he'
    · exact fun h1 => ⟨h1 e List.mem_cons_self, fun e' he' => h1 e' (List.mem_cons_of_mem _ he')⟩

/-! ### Examples and the claim -/

/-- A parser which reads lists separated by commas, with ports and masks. -/
def commaParser : Parser := ParserOp.runAll [(sampleEnv, .setAllow 2 true)] maskParser

theorem commaParser_reads : ReadsList commaParser where
  lookup := by decide
  range := by decide
  protocol := by decide
  list := .inl (by decide)
  comments := ⟨by decide, by decide⟩
  sort := by unfold Unsorted; decide
  addressMask := by decide
  default4 := by decide
  default6 := by decide
  nul4 := by decide
  nul6 := by decide

theorem comma_separates (x : Char) : separates commaParser x = (x == ',') := by
  rw [separates, show commaParser.config.flags .multiAddressesCommas = true by decide,
    show commaParser.config.flags .multiAddressesSpaces = false by decide, show commaParser.config.flags .multiAddressesNewlines = false by decide]
  simp [Bool.beq_eq_decide_eq]

theorem sample_items : items commaParser "10.1.2.3/8,, x,:80".toList = ["10.1.2.3/8".toList, " x".toList, ":80".toList] := by
  rw [items, show separates commaParser = (· == ',') from funext comma_separates]
  decide

/-- "10.1.2.3/8,, x,:80": a network, an error, and a port of the default address. -/
theorem sample_written : Written sampleEnv commaParser (items commaParser "10.1.2.3/8,, x,:80".toList)
    [(0xFFFF0A010203, 0, 104), (0xFFFF00000000, 80, 128)] 1 := by
  rw [sample_items]
  refine .item (.network (t := "10.1.2.3/8".toList) (a := "10.1.2.3".toList) (m := "8".toList) (u := "10.1.2.3".toList) (q := []) (by decide)
    (trims_self (by decide) (by decide)) ⟨by decide, .inr rfl⟩ (Entry.bare4 (by decide)) (.inl ⟨0x0A010203, by decide, by decide, rfl⟩)
    ⟨by decide, by rw [if_neg (by decide), if_pos (by decide)]; exact ⟨by decide, rfl⟩⟩ (.inr ⟨by decide, by decide, by decide, by decide⟩))
    (.error ?_ (.item (.maskOnly (t := ":80".toList) (a := ":80".toList) (m := []) (u := "0.0.0.0".toList) (q := "80".toList) (by decide)
      (trims_self (by decide) (by decide)) ⟨by decide, .inl ⟨rfl, rfl⟩⟩ (by decide)
      (.inl (.port4 (u := []) (by decide) (by decide) (.inl (by decide)))) (.inr ⟨?_, by decide⟩) address_any4
      ⟨by decide, by rw [if_pos (by decide)]; exact ⟨.inl (by decide), by decide⟩⟩ (.inl ⟨rfl, rfl⟩)) .nil))
  · rintro ⟨n, port, k, hi⟩
    obtain ⟨r, h1, _⟩ := item_accepted commaParser_reads (e := " x".toList) ⟨by decide, fun x hx => by rw [comma_separates]; revert x; decide,
      ⟨by decide, by decide⟩⟩ hi
    have h2 : (Parser.parse sampleEnv " x".toList commaParser).1.getErrorCount = 1 := by decide +kernel
    rw [h1] at h2
    exact absurd (show commaParser.getErrorCount = 1 from h2) (by decide)
  · unfold DefaultSix
    decide

example : ∃ p' rs, Parser.parse sampleEnv "10.1.2.3/8,, x,:80".toList commaParser = (p', .ok rs) ∧ p'.getErrorCount = 1
    ∧ rs.map resultOf = [(0xFFFF0A010203, 0, prefixMask 104), (0xFFFF00000000, 80, prefixMask 128)] := by
  obtain ⟨p', rs, h1, _, h2, _, _, h3⟩ := C91_list sampleEnv commaParser _ _ _ commaParser_reads (by decide) sample_written
  exact ⟨p', rs, h1, h2, h3⟩

/-- The options of a validator of lists. -/
def commaOptions : List Str := ["address=yes commas".toList, "port=no".toList]

/-- The validator of lists on two items. -/
example (h : sampleCount commaOptions = some 0)
    (hl : (sampleValidator commaOptions).config.flags .multiAddressesCommas = true)
    (hh : (sampleValidator commaOptions).config.flags .commentHash = false)
    (hs : (sampleValidator commaOptions).config.flags .commentSemicolon = false) :
    (∃ m, (Validator.validate sampleEnv "::1,10.0.0.1".toList (sampleValidator commaOptions)).2 = .ok (true, m))
      ↔ ∀ e ∈ items (sampleValidator commaOptions) "::1,10.0.0.1".toList,
        ∃ m, (Validator.validate sampleEnv e (sampleValidator commaOptions)).2 = .ok (true, m) :=
  C91_validator validatorEnv commaOptions _ 0 (sampleValidator_created h)
    (.inl ((C69_allowed_iff _ _ _ 0 (sampleValidator_created h) _).1 hl)) ⟨sample_off h _ hh, sample_off h _ hs⟩ [] sampleEnv _

example : sampleCount commaOptions = some 0 ∧ (sampleValidator commaOptions).config.flags .multiAddressesCommas = true
    ∧ (sampleValidator commaOptions).config.flags .commentHash = false
    ∧ (sampleValidator commaOptions).config.flags .commentSemicolon = false := by
  refine ⟨?_, ?_, ?_, ?_⟩ <;> decide +kernel

/-- C91, as stated: what is blank between two separators is skipped. -/
def C91_claim : Prop :=
  ∀ (env : ParseEnv) (p : Parser) (inp : Str), ReadsList p → '\x00' ∉ inp →
    Parser.parse env inp p = parseEach env ((fields (separates p) inp).filter fun e => Parser.trimString e ≠ []) p

/-- C91 is false as stated: with commas, the blank which ends "10.1.2.3, " is read as `0.0.0.0`. -/
theorem C91_claim_fails : ¬ C91_claim := by
  intro h
  have h1 := h sampleEnv commaParser "10.1.2.3, ".toList commaParser_reads (by decide)
  have h2 : (match (Parser.parse sampleEnv "10.1.2.3, ".toList commaParser).2 with
    | .ok l => decide (l.length = 2)
    | _ => false) = true := by decide +kernel
  have h3 : (fields (separates commaParser) "10.1.2.3, ".toList).filter (fun e => Parser.trimString e ≠ []) = ["10.1.2.3".toList] := by
    rw [show separates commaParser = (· == ',') from funext comma_separates]
    decide
  have h4 : (match (parseEach sampleEnv ["10.1.2.3".toList] commaParser).2 with
    | .ok l => decide (l.length = 2)
    | _ => false) = false := by decide +kernel
  rw [h1, h3, h4] at h2
  cases h2

/-- It holds for a list of which no item is blank. -/
theorem C91_blank_partial (env : ParseEnv) (p : Parser) (inp : Str) (h : ReadsList p)
    (hb : ∀ e ∈ items p inp, ∃ c ∈ e, c ∉ " \t\n\x0b\x0c\r".toList) :
    Parser.parse env inp p = parseEach env ((fields (separates p) inp).filter fun e => Parser.trimString e ≠ []) p := by
  rw [C41_entrywise env inp p h.list h.comments h.sort]
  congr 1
  refine List.filter_congr fun e he => ?_
  by_cases h0 : e = []
  · subst h0
    rfl
  · obtain ⟨c, h1, h2⟩ := hb e (List.mem_filter.2 ⟨he, by simpa using h0⟩)
    have : Parser.trimString e ≠ [] := by
      intro h3
      obtain ⟨x, y, e1, hx, hy, _⟩ := trims_trim e
      rw [h3, List.append_nil] at e1
      rw [e1] at h1
      rcases List.mem_append.1 h1 with h1 | h1
      · exact h2 (hx c h1)
      · exact h2 (hy c h1)
    simp [h0, this]

end Verif
