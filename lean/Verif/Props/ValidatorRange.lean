import Verif.Props.ListLanguage
import Verif.Props.RangeMask
import Verif.Lemmas.ToolWords

/-!
# Property C117: the ranges and the lists of ranges which the address validator accepts
-/

namespace Verif

open Spec

/-- The options ask for addresses written as numbers, alone or as ranges or lists: no lookups, comments or defaults. -/
structure Numbers (split : Str → List Str) (data : List Str) : Prop where
  lookup : ¬ allowedByOptions split data .addressLookup
  hash : ¬ allowedByOptions split data .commentHash
  semicolon : ¬ allowedByOptions split data .commentSemicolon
  noDefault : ∀ o ∈ data, optionName o ≠ "default".toList ∧ optionName o ≠ "defaults".toList

/-- The character separates the items of a value. -/
def SeparatesByOptions (split : Str → List Str) (data : List Str) (c : Char) : Prop :=
  (allowedByOptions split data .multiAddressesCommas ∧ c = ',') ∨ (allowedByOptions split data .multiAddressesSpaces ∧ c = ' ')
    ∨ (allowedByOptions split data .multiAddressesNewlines ∧ c = '\n')

/-- The text is an item of the value: not empty, without separators, and as long as it can be. -/
def ItemOf (split : Str → List Str) (data : List Str) (value e : Str) : Prop :=
  e ≠ [] ∧ (∀ c ∈ e, ¬ SeparatesByOptions split data c) ∧ ∃ a b, value = a ++ e ++ b
    ∧ (a = [] ∨ ∃ a' c, a = a' ++ [c] ∧ SeparatesByOptions split data c) ∧ (b = [] ∨ ∃ c b', b = c :: b' ∧ SeparatesByOptions split data c)

/-- Where masks are not allowed: an address, which may be left out where it is not required, or a range where these are allowed, with a
port. -/
def ValidItem (env : ParseEnv) (split : Str → List Str) (data : List Str) (e : Str) : Prop :=
  ∃ t u q, Trims e t ∧ Entry (PortsByOptions split data) t u q ∧ ValidPort env split data q
    ∧ (ValidAddress split data u ∨ (allowedByOptions split data .addressRange ∧ ∃ lo hi, WrittenRange u lo hi))

/-- Where masks are allowed: an address or a range with a port and a number of bits. -/
def ValidNetwork (env : ParseEnv) (split : Str → List Str) (data : List Str) (e : Str) : Prop :=
  ∃ t a m u q, Trims e t ∧ CutMask t a m ∧ Entry (PortsByOptions split data) a u q ∧ ValidPort env split data q
    ∧ ((¬ allowedByOptions split data .addressRange ∧ (∃ n, AddressOf u n) ∧ ∃ k, MaskOf a m k)
      ∨ (allowedByOptions split data .addressRange ∧ ∃ lo hi k, WrittenRange u lo hi ∧ RangeMaskOf a m lo k))

/-! ### The vocabulary above in terms of the model -/

theorem fields_head (sep : Char → Bool) (f b : Str) (hf : ∀ c ∈ f, sep c = false) (hb : b = [] ∨ ∃ c b', b = c :: b' ∧ sep c = true) :
    f ∈ fields sep (f ++ b) := by
  rcases hb with rfl | ⟨c, b', rfl, hc⟩
  · rw [List.append_nil, fields_self sep f hf]
    exact List.mem_cons_self
  · rw [fields_sep sep f b' c hf hc]
    exact List.mem_cons_self

theorem fields_later (sep : Char → Bool) (c : Char) (hc : sep c = true) (s : Str) (a : Str) :
    ∀ f ∈ fields sep s, f ∈ (fields sep (a ++ c :: s)).tail := by
  induction a with
  | nil =>
    intro f hf
    rw [List.nil_append, fields, if_pos hc]
    exact hf
  | cons x a ih =>
    intro f hf
    rw [List.cons_append, fields]
    split
    · exact List.mem_of_mem_tail (ih f hf)
    · exact ih f hf

theorem fields_iff (sep : Char → Bool) (s f : Str) : f ∈ fields sep s ↔ (∀ c ∈ f, sep c = false) ∧ ∃ a b, s = a ++ f ++ b
    ∧ (a = [] ∨ ∃ a' c, a = a' ++ [c] ∧ sep c = true) ∧ (b = [] ∨ ∃ c b', b = c :: b' ∧ sep c = true) := by
  constructor
  · intro hf
    refine ⟨fields_mem sep s f hf, ?_⟩
    -- the first field starts the text, the others follow a separator
    have key : ∀ s : Str, (∃ b, s = (fields sep s).headD [] ++ b ∧ (b = [] ∨ ∃ c b', b = c :: b' ∧ sep c = true))
        ∧ ∀ f ∈ (fields sep s).tail, ∃ a' c b, s = a' ++ [c] ++ f ++ b ∧ sep c = true ∧ (b = [] ∨ ∃ c b', b = c :: b' ∧ sep c = true) := by
      intro s
      induction s with
      | nil => exact ⟨⟨[], rfl, .inl rfl⟩, fun f hf => nomatch hf⟩
      | cons x s ih =>
        obtain ⟨⟨b, h1, h2⟩, h3⟩ := ih
        rw [fields]
        by_cases hx : sep x = true
        · rw [if_pos hx]
          refine ⟨⟨x :: s, rfl, .inr ⟨x, s, rfl, hx⟩⟩, fun f hf => ?_⟩
          have hf' : f ∈ (fields sep s).headD [] :: (fields sep s).tail := by
            cases hfs : fields sep s with
            | nil => rw [show ([] :: fields sep s).tail = fields sep s from rfl, hfs] at hf; cases hf
            | cons g gs =>
              rw [show ([] :: fields sep s).tail = fields sep s from rfl, hfs] at hf
              exact hf
          rcases List.mem_cons.1 hf' with rfl | hf'
          · exact ⟨[], x, b, by rw [List.nil_append, List.append_assoc, ← h1]; rfl, hx, h2⟩
          · obtain ⟨a', c, b', h4, h5, h6⟩ := h3 f hf'
            exact ⟨x :: a', c, b', by rw [h4]; simp, h5, h6⟩
        · rw [if_neg hx]
          refine ⟨⟨b, ?_, h2⟩, fun f hf => ?_⟩
          · show x :: s = x :: ((fields sep s).headD [] ++ b)
            rw [← h1]
          · obtain ⟨a', c, b', h4, h5, h6⟩ := h3 f hf
            exact ⟨x :: a', c, b', by rw [h4]; simp, h5, h6⟩
    obtain ⟨⟨b, h1, h2⟩, h3⟩ := key s
    cases hfs : fields sep s with
    | nil => rw [hfs] at hf; cases hf
    | cons g gs =>
      rw [hfs] at hf h1 h3
      rcases List.mem_cons.1 hf with rfl | hf
      · exact ⟨[], b, h1, .inl rfl, h2⟩
      · obtain ⟨a', c, b', h4, h5, h6⟩ := h3 f hf
        exact ⟨a' ++ [c], b', h4, .inr ⟨a', c, rfl, h5⟩, h6⟩
  · rintro ⟨hf, a, b, rfl, ha, hb⟩
    have hh := fields_head sep f b hf hb
    rcases ha with rfl | ⟨a', c, rfl, hc⟩
    · exact hh
    · have := fields_later sep c hc (f ++ b) a' f hh
      rw [show a' ++ [c] ++ f ++ b = a' ++ c :: (f ++ b) by simp]
      exact List.mem_of_mem_tail this

theorem trims_blank_iff (t : Str) : Trims [] t ↔ Trims [' '] t := by
  refine ⟨trims_blank, ?_⟩
  rintro ⟨x, y, h1, _, _, h4, h5⟩
  cases t with
  | nil => exact ⟨[], [], rfl, by decide, by decide, by decide, by decide⟩
  | cons c t =>
    have hc : c ∈ [' '] := by rw [h1]; simp
    rw [List.mem_singleton.1 hc] at h4
    exact absurd (by decide) (h4 ' ' rfl)

section
variable {env : Validator.Env} {data : List Str} {v : Parser} {n : Nat} (h : Validator.create env data = .ok (v, n))
include h

theorem created_separates_iff (c : Char) : separates v c = true ↔ SeparatesByOptions env.split data c := by
  unfold SeparatesByOptions
  rw [← C69_allowed_iff env data v n h, ← C69_allowed_iff env data v n h, ← C69_allowed_iff env data v n h, separates]
  simp [or_assoc]

theorem created_on {f : Allow} (hf : allowedByOptions env.split data f) : v.config.flags f = true := (C69_allowed_iff env data v n h f).2 hf

theorem created_dropped (lo hi : Option Nat) : ¬ Dropped v lo hi := by
  unfold Dropped
  rw [(created_rest h).1]
  exact fun h1 => h1.1 (by decide)

/-- One item, read by the parser of the validator. -/
theorem created_item (ho : Numbers env.split data) (hm : ¬ allowedByOptions env.split data .mask) (calls : List (ParseEnv × Str))
    (penv : ParseEnv) {value inp : Str} (hi : OneEntry v inp) (hparse : Parser.parse penv value v = Parser.parse penv inp v)
    (hsame : ∀ t, Trims value t ↔ Trims inp t) (hnul : '\x00' ∉ inp)
    (hl : allowedByOptions env.split data .requiredAddress ∨ ¬ allowedByOptions env.split data .addressRange ∨ '-' ∉ inp
      ∨ ∀ t, Trims value t → ¬ LeftOut t) :
    (∃ m, (Validator.validate penv value (Validator.validateAll calls v)).2 = .ok (true, m)) ↔ ValidItem penv env.split data value := by
  obtain ⟨hd4, hd6, _, _, _⟩ := created_flags h ho.noDefault
  have hport := created_ports_iff h ho.noDefault penv
  have ht := trims_trim inp
  have hnul' : '\x00' ∉ Parser.trimString inp := fun h1 => hnul (trims_mem ht _ h1)
  have hone (hr : ¬ allowedByOptions env.split data .addressRange ∨ '-' ∉ inp) : ReadsOne v inp :=
    ⟨created_off h ho.lookup, created_off h hm, hr.imp_left (created_off h), created_protocol h, hi, created_unsorted h⟩
  have hrange (hr : allowedByOptions env.split data .addressRange) : ReadsRange v inp :=
    ⟨created_off h ho.lookup, created_off h hm, created_on h hr, created_protocol h, hi, created_unsorted h⟩
  have left (hr : ¬ allowedByOptions env.split data .requiredAddress) (hone : ReadsOne v inp) {t q : Str} (ht : Trims inp t)
      (he : Entry (PortsAllowed v) t [] q) (hq : ValidPort penv env.split data q) :
      ∃ m, (Validator.validate penv value (Validator.validateAll calls v)).2 = .ok (true, m) := by
    obtain ⟨port, hq⟩ := (hport q).2 hq
    obtain ⟨k, hk⟩ := address_default hd4 hd6 t
    obtain ⟨r, h1, _⟩ := C81_default penv v inp t q k port hone ht (created_off h hr) (.inl he) hk hq
    rw [← hparse] at h1
    exact valid_of_parse h calls penv value h1
  unfold ValidItem
  rw [← created_ports h]
  constructor
  · intro hv
    refine Classical.byContradiction fun hno => invalid_of_parse h calls penv value ?_ hv
    rw [hparse]
    by_cases hl' : v.config.flags .requiredAddress = true ∨ ¬ LeftOut (Parser.trimString inp)
    · by_cases hr : allowedByOptions env.split data .addressRange
      · obtain ⟨p', h1, _, _, h2, _⟩ := C86_refused penv v inp _ (hrange hr) ht hnul' hl' (fun ⟨u, q, lo, hi, port, h3, h4, h5⟩ =>
          hno ⟨_, u, q, (hsame _).2 ht, h3, (hport q).1 ⟨port, h5⟩, .inr ⟨hr, lo, hi, h4⟩⟩)
        rw [h1]
        exact h2
      · obtain ⟨p', h1, _, _, h2, _⟩ := C79_refused penv v inp _ (hone (.inl hr)) ht hnul' hl' (fun ⟨u, q, k, port, h3, h4, h5⟩ =>
          hno ⟨_, u, q, (hsame _).2 ht, h3, (hport q).1 ⟨port, h5⟩, .inl (.inl ⟨k, h4⟩)⟩)
        rw [h1]
        exact h2
    · obtain ⟨h3, h4⟩ := not_or.1 hl'
      have hr : ¬ allowedByOptions env.split data .addressRange ∨ '-' ∉ inp := by
        rcases hl with hl | hl | hl | hl
        · exact absurd (created_on h hl) h3
        · exact .inl hl
        · exact .inr hl
        · exact absurd (hl _ ((hsame _).2 ht)) h4
      have h3' : v.config.flags .requiredAddress = false := by simpa using h3
      obtain ⟨p', h1, _, _, h2, _⟩ := C81_refused penv v inp _ (hone hr) ht (Classical.not_not.1 h4) h3' (by rw [hd4]; decide)
        (by rw [hd6]; decide) (fun ⟨q, k, port, h5, _, h6⟩ => by
          rcases h5 with h5 | ⟨_, _, _, _, h5⟩
          · exact hno ⟨_, [], q, (hsame _).2 ht, h5, (hport q).1 ⟨port, h6⟩, .inl (.inr ⟨rfl, fun h7 => h3 (created_on h h7)⟩)⟩
          · exact h5 hd6)
      rw [h1]
      exact h2
  · rintro ⟨t, u, q, ht, he, hq, ha⟩
    have ht' := (hsame t).1 ht
    have range {lo hi : Option Nat} (hr : allowedByOptions env.split data .addressRange) (hw : WrittenRange u lo hi) :
        ∃ m, (Validator.validate penv value (Validator.validateAll calls v)).2 = .ok (true, m) := by
      obtain ⟨port, hq⟩ := (hport q).2 hq
      obtain ⟨r, h1, _⟩ := (C86_accepted penv v inp t u q lo hi port (hrange hr) ht' he hw hq).1 (created_dropped h lo hi)
      rw [← hparse] at h1
      exact valid_of_parse h calls penv value h1
    rcases ha with (⟨k, ha⟩ | ⟨rfl, ha⟩) | ⟨hr, lo, hi, hw⟩
    · by_cases hr : allowedByOptions env.split data .addressRange
      · exact range hr (.one ha)
      · obtain ⟨port, hq⟩ := (hport q).2 hq
        obtain ⟨r, h1, _⟩ := C79_accepted penv v inp t u q k port (hone (.inl hr)) ht' he ha hq
        rw [← hparse] at h1
        exact valid_of_parse h calls penv value h1
    · have hr : ¬ allowedByOptions env.split data .addressRange ∨ '-' ∉ inp := by
        rcases hl with hl | hl | hl | hl
        · exact absurd hl ha
        · exact .inl hl
        · exact .inr hl
        · exact absurd (noAddress_leftOut (m := []) (.inl he)) (hl t ht)
      exact left ha (hone hr) ht' he hq
    · exact range hr hw

/-- One item with a mask. -/
theorem created_network (ho : Numbers env.split data) (hm : allowedByOptions env.split data .mask)
    (hm' : ¬ allowedByOptions env.split data .addressMask) (calls : List (ParseEnv × Str))
    (penv : ParseEnv) {value inp : Str} (hi : OneEntry v inp) (hparse : Parser.parse penv value v = Parser.parse penv inp v)
    (hsame : ∀ t, Trims value t ↔ Trims inp t) (hnul : '\x00' ∉ inp)
    (hl : allowedByOptions env.split data .requiredAddress ∨ ∀ t a m, Trims value t → CutMask t a m → ¬ LeftOut a) :
    (∃ m, (Validator.validate penv value (Validator.validateAll calls v)).2 = .ok (true, m)) ↔ ValidNetwork penv env.split data value := by
  obtain ⟨_, _, hd4, hd6, _⟩ := created_flags h ho.noDefault
  have hport := created_ports_iff h ho.noDefault penv
  have ht := trims_trim inp
  have hnul' : '\x00' ∉ Parser.trimString inp := fun h1 => hnul (trims_mem ht _ h1)
  obtain ⟨a, m, hc⟩ := cutMask_ex (Parser.trimString inp)
  have hl' : v.config.flags .requiredAddress = true ∨ ¬ LeftOut a := hl.imp (created_on h) fun h1 => h1 _ a m ((hsame _).2 ht) hc
  have hmask (hr : ¬ allowedByOptions env.split data .addressRange) : ReadsMask v inp :=
    ⟨created_off h ho.lookup, created_on h hm, created_off h hm', .inl (created_off h hr), created_protocol h, hi, created_unsorted h, hd4, hd6⟩
  have hrange (hr : allowedByOptions env.split data .addressRange) : ReadsRangeMask v inp :=
    ⟨created_off h ho.lookup, created_on h hm, created_off h hm', created_on h hr, created_protocol h, hi, created_unsorted h, hd4, hd6⟩
  unfold ValidNetwork
  rw [← created_ports h]
  constructor
  · intro hv
    refine Classical.byContradiction fun hno => invalid_of_parse h calls penv value ?_ hv
    rw [hparse]
    by_cases hr : allowedByOptions env.split data .addressRange
    · obtain ⟨p', h1, _, _, h2, _⟩ := C97_refused penv v inp _ a m (hrange hr) ht hc hnul' hl' (fun ⟨u, q, lo, hi, port, h3, h4, h5, h6⟩ =>
        h6.elim (created_dropped h lo hi) fun ⟨k, h6⟩ =>
          hno ⟨_, a, m, u, q, (hsame _).2 ht, hc, h3, (hport q).1 ⟨port, h5⟩, .inr ⟨hr, lo, hi, k, h4, h6⟩⟩)
      rw [h1]
      exact h2
    · obtain ⟨p', h1, _, _, h2, _⟩ := C88_refused penv v inp _ a m (hmask hr) ht hc hnul' hl' (fun ⟨u, q, k, port, b, h3, h4, h5, h6⟩ =>
        hno ⟨_, a, m, u, q, (hsame _).2 ht, hc, h3, (hport q).1 ⟨port, h5⟩, .inl ⟨hr, ⟨k, h4⟩, b, h6⟩⟩)
      rw [h1]
      exact h2
  · rintro ⟨t, a, m, u, q, ht, hc, he, hq, ha⟩
    have ht' := (hsame t).1 ht
    obtain ⟨port, hq⟩ := (hport q).2 hq
    rcases ha with ⟨hr, ⟨k, ha⟩, b, hb⟩ | ⟨hr, lo, hi, k, hw, hk⟩
    · obtain ⟨r, h1, _⟩ := C88_accepted penv v inp t a m u q k port b (hmask hr) ht' hc he ha hq hb
      rw [← hparse] at h1
      exact valid_of_parse h calls penv value h1
    · obtain ⟨r, h1, _⟩ := (C97_accepted penv v inp t a m u q lo hi port (hrange hr) ht' hc he hw hq).1 k (created_dropped h lo hi) hk
      rw [← hparse] at h1
      exact valid_of_parse h calls penv value h1

theorem created_items (value e : Str) : e ∈ items v value ↔ ItemOf env.split data value e := by
  have hs (c : Char) : separates v c = false ↔ ¬ SeparatesByOptions env.split data c := by
    rw [← created_separates_iff h c, Bool.not_eq_true]
  unfold ItemOf
  simp only [← created_separates_iff h, items, List.mem_filter, fields_iff, Bool.not_eq_true, decide_eq_true_eq]
  exact and_comm

theorem created_alone (ho : Numbers env.split data) (hs : ∀ c, ¬ SeparatesByOptions env.split data c) (penv : ParseEnv) (value : Str)
    (hnul : '\x00' ∉ value) :
    ∃ inp, OneEntry v inp ∧ Parser.parse penv value v = Parser.parse penv inp v ∧ (∀ t, Trims value t ↔ Trims inp t) ∧ '\x00' ∉ inp
      ∧ ('-' ∉ value → '-' ∉ inp) := by
  have hs' (c : Char) : separates v c = false := by
    have := hs c
    rw [← created_separates_iff h c, Bool.not_eq_true] at this
    exact this
  have hc : NoComments v := ⟨created_off h ho.hash, created_off h ho.semicolon⟩
  by_cases hv : value = []
  · subst hv
    exact ⟨[' '], ⟨by decide, fun x _ => hs' x, hc⟩, C81_empty_blank penv v hs' hc, trims_blank_iff, by decide, fun _ => by decide⟩
  · exact ⟨value, ⟨hv, fun x _ => hs' x, hc⟩, rfl, fun _ => Iff.rfl, hnul, id⟩

theorem created_each (ho : Numbers env.split data) {value e : Str} (he : ItemOf env.split data value e) (hnul : '\x00' ∉ value) :
    OneEntry v e ∧ '\x00' ∉ e := by
  obtain ⟨h1, h2, a, b, h3, _⟩ := he
  refine ⟨⟨h1, fun c hc => ?_, ⟨created_off h ho.hash, created_off h ho.semicolon⟩⟩, fun hc => hnul (by rw [h3]; simp [hc])⟩
  have := h2 c hc
  rw [← created_separates_iff h c, Bool.not_eq_true] at this
  exact this

end

/-! ### C117 -/

/-- C117: a validator of one address or range, without masks, accepts the values which consist of an address or of a range with a port;
an address left out counts where it is not required. -/
theorem C117_valid_iff (env : Validator.Env) (data : List Str) (v : Parser) (n : Nat) (h : Validator.create env data = .ok (v, n))
    (ho : Numbers env.split data) (hs : ∀ c, ¬ SeparatesByOptions env.split data c) (hm : ¬ allowedByOptions env.split data .mask)
    (calls : List (ParseEnv × Str)) (penv : ParseEnv) (value : Str) (hnul : '\x00' ∉ value)
    (hl : allowedByOptions env.split data .requiredAddress ∨ ¬ allowedByOptions env.split data .addressRange ∨ '-' ∉ value
      ∨ ∀ t, Trims value t → ¬ LeftOut t) :
    (∃ m, (Validator.validate penv value (Validator.validateAll calls v)).2 = .ok (true, m)) ↔ ValidItem penv env.split data value := by
  obtain ⟨inp, h1, h2, h3, h4, h5⟩ := created_alone h ho hs penv value hnul
  exact created_item h ho hm calls penv h1 h2 h3 h4 (hl.imp_right fun h6 => h6.imp_right fun h7 => h7.imp_left h5)

/-- C117: a validator of lists accepts the values of which every item is such an address or range. -/
theorem C117_list_iff (env : Validator.Env) (data : List Str) (v : Parser) (n : Nat) (h : Validator.create env data = .ok (v, n))
    (ho : Numbers env.split data) (hs : ∃ c, SeparatesByOptions env.split data c) (hm : ¬ allowedByOptions env.split data .mask)
    (calls : List (ParseEnv × Str)) (penv : ParseEnv) (value : Str) (hnul : '\x00' ∉ value)
    (hl : allowedByOptions env.split data .requiredAddress ∨ ¬ allowedByOptions env.split data .addressRange ∨ '-' ∉ value
      ∨ ∀ e t, ItemOf env.split data value e → Trims e t → ¬ LeftOut t) :
    (∃ m, (Validator.validate penv value (Validator.validateAll calls v)).2 = .ok (true, m))
      ↔ ∀ e, ItemOf env.split data value e → ValidItem penv env.split data e := by
  rw [C91_validator env data v n h (hs.elim fun c hc => hc.imp And.left fun hc => hc.imp And.left And.left) ⟨ho.hash, ho.semicolon⟩]
  refine forall_congr' fun e => ?_
  rw [created_items h]
  refine imp_congr_right fun he => ?_
  obtain ⟨h1, h2⟩ := created_each h ho he hnul
  refine created_item h ho hm calls penv h1 rfl (fun _ => Iff.rfl) h2 (hl.imp_right fun h6 => h6.imp_right fun h7 => h7.imp ?_ fun h8 t => h8 e t he)
  obtain ⟨_, _, a, b, h9, _⟩ := he
  exact fun h8 hc => h8 (by rw [h9]; simp [hc])

/-- C117: where masks are allowed, a number of bits may follow; here the address is required or not left out. -/
theorem C117_mask_iff (env : Validator.Env) (data : List Str) (v : Parser) (n : Nat) (h : Validator.create env data = .ok (v, n))
    (ho : Numbers env.split data) (hs : ∀ c, ¬ SeparatesByOptions env.split data c) (hm : allowedByOptions env.split data .mask)
    (hm' : ¬ allowedByOptions env.split data .addressMask)
    (calls : List (ParseEnv × Str)) (penv : ParseEnv) (value : Str) (hnul : '\x00' ∉ value)
    (hl : allowedByOptions env.split data .requiredAddress ∨ ∀ t a m, Trims value t → CutMask t a m → ¬ LeftOut a) :
    (∃ m, (Validator.validate penv value (Validator.validateAll calls v)).2 = .ok (true, m)) ↔ ValidNetwork penv env.split data value := by
  obtain ⟨inp, h1, h2, h3, h4, _⟩ := created_alone h ho hs penv value hnul
  exact created_network h ho hm hm' calls penv h1 h2 h3 h4 hl

/-- C117: the same for lists. -/
theorem C117_mask_list_iff (env : Validator.Env) (data : List Str) (v : Parser) (n : Nat) (h : Validator.create env data = .ok (v, n))
    (ho : Numbers env.split data) (hs : ∃ c, SeparatesByOptions env.split data c) (hm : allowedByOptions env.split data .mask)
    (hm' : ¬ allowedByOptions env.split data .addressMask)
    (calls : List (ParseEnv × Str)) (penv : ParseEnv) (value : Str) (hnul : '\x00' ∉ value)
    (hl : allowedByOptions env.split data .requiredAddress
      ∨ ∀ e t a m, ItemOf env.split data value e → Trims e t → CutMask t a m → ¬ LeftOut a) :
    (∃ m, (Validator.validate penv value (Validator.validateAll calls v)).2 = .ok (true, m))
      ↔ ∀ e, ItemOf env.split data value e → ValidNetwork penv env.split data e := by
  rw [C91_validator env data v n h (hs.elim fun c hc => hc.imp And.left fun hc => hc.imp And.left And.left) ⟨ho.hash, ho.semicolon⟩]
  refine forall_congr' fun e => ?_
  rw [created_items h]
  refine imp_congr_right fun he => ?_
  obtain ⟨h1, h2⟩ := created_each h ho he hnul
  exact created_network h ho hm hm' calls penv h1 rfl (fun _ => Iff.rfl) h2 (hl.imp_right fun h8 t a m => h8 e t a m he)

/-! ### Examples -/

/-- The options of the examples. -/
def rangeOptions : List Str := ["address=required range".toList]

def rangeListOptions : List Str := ["address=required range commas".toList, "mask=yes".toList]

theorem rangeOptions_count : sampleCount rangeOptions = some 0 := by decide +kernel

theorem rangeListOptions_count : sampleCount rangeListOptions = some 0 := by decide +kernel

theorem sample_on {data : List Str} {k : Nat} (h : sampleCount data = some k) (f : Allow) (hf : (sampleValidator data).config.flags f = true) :
    allowedByOptions validatorEnv.split data f := (C69_allowed_iff validatorEnv data _ k (sampleValidator_created h) f).1 hf

theorem rangeOptions_numbers : Numbers validatorEnv.split rangeOptions := by
  refine ⟨?_, ?_, ?_, by decide⟩ <;> exact sample_off rangeOptions_count _ (by decide +kernel)

theorem rangeListOptions_numbers : Numbers validatorEnv.split rangeListOptions := by
  refine ⟨?_, ?_, ?_, by decide⟩ <;> exact sample_off rangeListOptions_count _ (by decide +kernel)

theorem rangeOptions_alone (c : Char) : ¬ SeparatesByOptions validatorEnv.split rangeOptions c := by
  rintro (⟨h, _⟩ | ⟨h, _⟩ | ⟨h, _⟩) <;> exact sample_off rangeOptions_count _ (by decide +kernel) h

/-- " 10.0.0.1-10.0.0.9" is valid, after any other values. -/
example (calls : List (ParseEnv × Str)) : ∃ m, (Validator.validate sampleEnv " 10.0.0.1-10.0.0.9".toList
    (Validator.validateAll calls (sampleValidator rangeOptions))).2 = .ok (true, m) :=
  (C117_valid_iff validatorEnv rangeOptions _ 0 (sampleValidator_created rangeOptions_count) rangeOptions_numbers rangeOptions_alone
    (sample_off rangeOptions_count _ (by decide +kernel)) calls sampleEnv " 10.0.0.1-10.0.0.9".toList (by decide)
    (.inl (sample_on rangeOptions_count _ (by decide +kernel)))).2
    ⟨"10.0.0.1-10.0.0.9".toList, "10.0.0.1-10.0.0.9".toList, [], ⟨[' '], [], rfl, by decide, by decide, by decide, by decide⟩, .bare4 (by decide),
      .inl ⟨rfl, sample_off rangeOptions_count _ (by decide +kernel)⟩, .inr ⟨sample_on rangeOptions_count _ (by decide +kernel), _, _,
        .both (u := "10.0.0.1".toList) (v := "10.0.0.9".toList) (.inl ⟨0x0A000001, by decide, by decide, rfl⟩) (.inl ⟨0x0A000009, by decide, by decide, rfl⟩)⟩⟩

/-- "-" is not, whatever the options: it is not among the texts above. -/
example : ¬ ValidItem sampleEnv validatorEnv.split rangeOptions "-".toList := by
  rw [← C117_valid_iff validatorEnv rangeOptions _ 0 (sampleValidator_created rangeOptions_count) rangeOptions_numbers rangeOptions_alone
    (sample_off rangeOptions_count _ (by decide +kernel)) [] sampleEnv "-".toList (by decide)
    (.inl (sample_on rangeOptions_count _ (by decide +kernel)))]
  rintro ⟨m, h⟩
  have h1 : (match (Validator.validate sampleEnv "-".toList (Validator.validateAll [] (sampleValidator rangeOptions))).2 with
    | .ok (true, _) => true
    | _ => false) = false := by decide +kernel
  rw [h] at h1
  cases h1

/-- The items of a list with a range which has a mask are valid where masks, ranges and lists are allowed. -/
example (hi : ∀ e, ItemOf validatorEnv.split rangeListOptions "10.0.0.1-/8,,::1".toList e → e = "10.0.0.1-/8".toList ∨ e = "::1".toList)
    (h1 : ValidNetwork sampleEnv validatorEnv.split rangeListOptions "10.0.0.1-/8".toList)
    (h2 : ValidNetwork sampleEnv validatorEnv.split rangeListOptions "::1".toList) :
    ∃ m, (Validator.validate sampleEnv "10.0.0.1-/8,,::1".toList (sampleValidator rangeListOptions)).2 = .ok (true, m) :=
  (C117_mask_list_iff validatorEnv rangeListOptions _ 0 (sampleValidator_created rangeListOptions_count) rangeListOptions_numbers
    ⟨',', .inl ⟨sample_on rangeListOptions_count _ (by decide +kernel), rfl⟩⟩ (sample_on rangeListOptions_count _ (by decide +kernel))
    (sample_off rangeListOptions_count _ (by decide +kernel)) [] sampleEnv "10.0.0.1-/8,,::1".toList (by decide)
    (.inl (sample_on rangeListOptions_count _ (by decide +kernel)))).2 fun e he => by
      rcases hi e he with rfl | rfl
      · exact h1
      · exact h2

/-- These are its items, and they are valid. -/
example : (∀ e, ItemOf validatorEnv.split rangeListOptions "10.0.0.1-/8,,::1".toList e → e = "10.0.0.1-/8".toList ∨ e = "::1".toList)
    ∧ ValidNetwork sampleEnv validatorEnv.split rangeListOptions "10.0.0.1-/8".toList
    ∧ ValidNetwork sampleEnv validatorEnv.split rangeListOptions "::1".toList := by
  refine ⟨fun e he => ?_, ?_, ?_⟩
  · rw [← created_items (sampleValidator_created rangeListOptions_count), items,
      show separates (sampleValidator rangeListOptions) = (· == ',') from funext fun c => by
        rw [separates, show (sampleValidator rangeListOptions).config.flags .multiAddressesCommas = true by decide +kernel,
          show (sampleValidator rangeListOptions).config.flags .multiAddressesSpaces = false by decide +kernel,
          show (sampleValidator rangeListOptions).config.flags .multiAddressesNewlines = false by decide +kernel]
        simp,
      show (fields (· == ',') "10.0.0.1-/8,,::1".toList).filter (· ≠ []) = ["10.0.0.1-/8".toList, "::1".toList] by decide] at he
    simpa using he
  · exact ⟨_, "10.0.0.1-".toList, "8".toList, "10.0.0.1-".toList, [], trims_self (by decide) (by decide), ⟨by decide, .inr rfl⟩, .bare4 (by decide),
      .inl ⟨rfl, sample_off rangeListOptions_count _ (by decide +kernel)⟩, .inr ⟨sample_on rangeListOptions_count _ (by decide +kernel), _, _, 104,
        .start (u := "10.0.0.1".toList) (.inl ⟨0x0A000001, by decide, by decide, rfl⟩), .inr ⟨by decide, by decide, by decide, by decide⟩⟩⟩
  · exact ⟨_, "::1".toList, [], "::1".toList, [], trims_self (by decide) (by decide), ⟨by decide, .inl ⟨rfl, rfl⟩⟩, .bare6 (by decide),
      .inl ⟨rfl, sample_off rangeListOptions_count _ (by decide +kernel)⟩, .inr ⟨sample_on rangeListOptions_count _ (by decide +kernel), _, _, 128,
        .one (n := 1) (.inr ⟨by decide, .zip (p := []) (ps := []) (z := 7) (q := "1".toList) (qs := [1]) (.inl ⟨rfl, rfl⟩)
      (.inr (.one ⟨HexNum.snoc (t := []) (v := 0) (c := '1') (d := 1) .nil (.inl (by decide)), by decide, by decide⟩)) (by decide) (by decide)⟩),
        .inl ⟨rfl, rfl⟩⟩⟩

end Verif
