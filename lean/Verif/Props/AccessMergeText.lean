import Verif.Props.MergeMatches
import Verif.Props.AccessPrint
import Verif.SpecAccessMerge

/-!
# Property C110: what a merged list of networks and ranges matches, from its text
-/

namespace Verif

open Spec

/-- The entries of some texts, spaces around them aside; ranges without an address may be left out if `drop`. -/
inductive ItemsOf (drop : Prop) : List Str → List AccessItem → Prop
  | nil : ItemsOf drop [] []
  | item {e t : Str} {q : AccessItem} {es : List Str} {Q : List AccessItem} (ht : Trims e t) (hq : ItemOf t q) (h : ItemsOf drop es Q) :
      ItemsOf drop (e :: es) (q :: Q)
  | drop {e t : Str} {es : List Str} {Q : List AccessItem} (hd : drop) (ht : Trims e t) (hq : WrongWay t) (h : ItemsOf drop es Q) :
      ItemsOf drop (e :: es) Q

/-- The entries written in the text, one by one. -/
def WritesItems (p : Parser) (inp : Str) (Q : List AccessItem) : Prop :=
  ItemsOf (p.config.sort &&& SORT_NO_EMPTY ≠ 0) ((fields (separates p) inp).filter (· ≠ [])) Q

/-- The range of an entry. -/
structure IsItem (r : Range) (q : AccessItem) : Prop where
  span : r.isRange = q.span
  lo : first r = q.lo
  hi : last r = q.hi
  bits : r.lo.getMaskSize = q.bits
  plain : r.hasFrom = true ∨ r.lo.getMaskSize = 128

theorem parse_range_one {env : ParseEnv} {p : Parser} (h : ReadsAccess p) (hs : Unsorted p) {e t u : Str} {lo hi : Option Nat}
    (hone : OneEntry p e) (ht : Trims e t) (he : Entry False t u []) (hr : WrittenRange u lo hi) :
    (¬ NoneBetween lo hi → ∃ r, Parser.parse env e p = (p, .ok [r]) ∧ Parser.IsBound r.hasFrom r.lo 0 false lo
        ∧ Parser.IsBound r.hasTo r.hi 0 false hi)
      ∧ (p.config.sort &&& SORT_NO_EMPTY ≠ 0 → NoneBetween lo hi → Parser.parse env e p = (p, .ok [])) := by
  obtain ⟨h1, h2⟩ := Parser.rangeEntry_accepts (env := env) (p := p) ⟨h.lookup, h.protocol⟩ h.range (entry_ports he _) hr
    (portOf_none env h.port h.defaultPort)
  have hmask : ∀ v4, Parser.chooseMask p.config [] v4 = [] := fun v4 => by
    simp [Parser.chooseMask, h.mask4, h.mask6]
  have hsplit : Parser.splitFirst '/' t = none := Parser.splitFirst_none.2 (range_slash he hr)
  have key : ∀ v4 l, Parser.parseAddress env t [] [] p = (p, .ok (v4, l)) → Parser.maskLoop env [] v4 l p = (p, .ok l) →
      Parser.parse env e p = (p, .ok l) := by
    intro v4 l h1 hl
    rw [parse_one_unsorted env e p hone hs, Parser.parseCidr, PM.config_bind, trims_eq ht]
    dsimp only
    rw [if_pos h.mask, hsplit]
    show (Parser.errorCountNow >>= fun errcnt => Parser.parseAddress env t [] [] >>= fun x => Parser.maskLoop env [] x.1 x.2 >>= fun l =>
      Parser.errorCountNow >>= fun now => if errcnt = now then (Pure.pure ([] ++ l) : PM (List Range)) else Pure.pure []) p = _
    simp only [PM.bind_def, Parser.errorCountNow, h1, hl, if_true]
    rfl
  constructor
  · intro hn
    obtain ⟨v4, r, h3, h4, h5⟩ := h1 fun h => hn h.2
    refine ⟨r, key v4 [r] h3 ?_, h4, h5⟩
    simp only [Parser.maskLoop, PM.config_bind, hmask, Parser.parseMask]
    rfl
  · intro hd hn
    obtain ⟨v4, h3⟩ := h2 hd hn
    exact key v4 [] h3 rfl

theorem full_size {a : Addr} (h : ip a.getMask = 2 ^ 128 - 1) : a.getMaskSize = 128 :=
  (C09_mask_size_iff a 128 (by decide)).2 (by rw [h]; decide)

theorem parse_item {env : ParseEnv} {p : Parser} (h : ReadsAccess p) (hs : Unsorted p) {e t : Str} {q : AccessItem} (hone : OneEntry p e)
    (ht : Trims e t) (hq : ItemOf t q) : ∃ r, Parser.parse env e p = (p, .ok [r]) ∧ IsItem r q := by
  cases hq with
  | @network n k hn =>
    obtain ⟨r, h1, h2⟩ := parse_network (env := env) h.toReadsNetworks hs hone.nonempty hone.separator ht hn
    obtain ⟨g1, g2, g3, g4, g5⟩ := h2
    refine ⟨r, h1, ⟨by simp [Range.isRange, g2], ?_, ?_, (C09_mask_size_iff r.lo k g4).2 g5, .inl g1⟩⟩
    · rw [first, if_pos g1]; exact g3
    · rw [last, if_neg (by rw [g2]; exact Bool.false_ne_true)]; exact g3
  | @start u n he hr =>
    obtain ⟨r, h1, ⟨g1, g2, _, _, g3⟩, g4, _⟩ := (parse_range_one (env := env) h hs hone ht he hr).1 (fun ⟨_, _, _, h, _⟩ => nomatch h)
    refine ⟨r, h1, ⟨by simp [Range.isRange, g4], ?_, ?_, full_size g3, .inl g1⟩⟩
    · rw [first, if_pos g1]; exact g2
    · rw [last, if_neg (by rw [g4]; exact Bool.false_ne_true)]; exact g2
  | @stop u n he hr =>
    obtain ⟨r, h1, ⟨g4, g5⟩, ⟨g1, g2, _, _, g3⟩⟩ := (parse_range_one (env := env) h hs hone ht he hr).1 (fun ⟨_, _, h, _⟩ => nomatch h)
    have hsz : r.lo.getMaskSize = 128 := by rw [g5]; exact Parser.default_whole
    refine ⟨r, h1, ⟨by simp [Range.isRange, g4], ?_, ?_, hsz, .inr hsz⟩⟩
    · rw [first, if_neg (by rw [g4]; exact Bool.false_ne_true)]; exact g2
    · rw [last, if_pos g1]; exact g2
  | @span u n m he hr hle =>
    obtain ⟨r, h1, ⟨g1, g2, _, _, g3⟩, ⟨g4, g5, _, _, _⟩⟩ := (parse_range_one (env := env) h hs hone ht he hr).1 (by
      rintro ⟨n', m', h1, h2, h3⟩
      cases h1
      cases h2
      omega)
    refine ⟨r, h1, ⟨by simp [Range.isRange, g1, g4], ?_, ?_, full_size g3, .inl g1⟩⟩
    · rw [first, if_pos g1]; exact g2
    · rw [last, if_pos g4]; exact g5

theorem parseEach_items {env : ParseEnv} {p : Parser} (h : ReadsAccess p) (hs : Unsorted p) {d : Prop}
    (hd : d → p.config.sort &&& SORT_NO_EMPTY ≠ 0) {es : List Str} {Q : List AccessItem} (he : ∀ e ∈ es, OneEntry p e) (hq : ItemsOf d es Q) :
    ∃ l, parseEach env es p = (p, .ok l) ∧ List.Forall₂ IsItem l Q := by
  induction hq with
  | nil => exact ⟨[], rfl, .nil⟩
  | @item e t q es Q ht hq _ ih =>
    obtain ⟨l, h1, h2⟩ := ih fun e' he' => he e' (List.mem_cons_of_mem _ he')
    obtain ⟨r, h4, h5⟩ := parse_item (env := env) h hs (he e List.mem_cons_self) ht hq
    refine ⟨r :: l, ?_, .cons h5 h2⟩
    simp only [parseEach, h4, h1]
    rfl
  | @drop e t es Q hdr ht hq _ ih =>
    obtain ⟨l, h1, h2⟩ := ih fun e' he' => he e' (List.mem_cons_of_mem _ he')
    obtain ⟨u, lo, hi, j1, j2, j3⟩ := hq
    have h4 := (parse_range_one (env := env) h hs (he e List.mem_cons_self) ht j1 j2).2 (hd hdr) j3
    refine ⟨l, ?_, h2⟩
    simp only [parseEach, h4, h1]
    rfl

/-- What is read, before it is sorted. -/
theorem items_read (env : ParseEnv) {p : Parser} {inp : Str} {Q : List AccessItem} (h : ReadsAccess p) (hq : WritesItems p inp Q) :
    ∃ l, Parser.parse env inp (unsortedOf p) = (unsortedOf p, .ok l) ∧ List.Forall₂ IsItem l Q := by
  have hr := readsAccess_unsorted h
  have hs := unsorted_unsortedOf p
  have hcfg := unsortedOf_config p
  have hsep : separates (unsortedOf p) = separates p := by
    funext x
    rw [separates, separates, hcfg]
  have hsort : (unsortedOf p).config.sort &&& SORT_NO_EMPTY = p.config.sort &&& SORT_NO_EMPTY := by
    rw [hcfg]
    show (p.config.sort &&& SORT_NO_EMPTY) &&& SORT_NO_EMPTY = _
    rw [BitVec.and_assoc, BitVec.and_self]
  obtain ⟨l, h1, h2⟩ := parseEach_items (env := env) hr hs (fun hd => by rw [hsort]; exact hd) (fun e he => by
    rw [List.mem_filter] at he
    exact ⟨by simpa using he.2, by rw [hsep]; exact fields_mem _ _ _ he.1, hr.comments⟩) hq
  refine ⟨l, ?_, h2⟩
  rw [C41_entrywise env inp (unsortedOf p) hr.list hr.comments hs, hsep]
  exact h1

/-! ### From the ranges to the numbers -/

theorem items_left {l : List Range} {Q : List AccessItem} (h : List.Forall₂ IsItem l Q) : ∀ r ∈ l, ∃ q ∈ Q, IsItem r q := by
  induction h with
  | nil => exact fun r hr => nomatch hr
  | @cons r q l Q hrq _ ih =>
    intro r' hr'
    rcases List.mem_cons.1 hr' with rfl | hr'
    · exact ⟨q, List.mem_cons_self, hrq⟩
    · obtain ⟨q', h1, h2⟩ := ih r' hr'
      exact ⟨q', List.mem_cons_of_mem _ h1, h2⟩

theorem items_right {l : List Range} {Q : List AccessItem} (h : List.Forall₂ IsItem l Q) : ∀ q ∈ Q, ∃ r ∈ l, IsItem r q := by
  induction h with
  | nil => exact fun r hr => nomatch hr
  | @cons r q l Q hrq _ ih =>
    intro q' hq'
    rcases List.mem_cons.1 hq' with rfl | hq'
    · exact ⟨r, List.mem_cons_self, hrq⟩
    · obtain ⟨r', h1, h2⟩ := ih q' hq'
      exact ⟨r', List.mem_cons_of_mem _ h1, h2⟩

theorem items_holding {l : List Range} {Q : List AccessItem} (h : List.Forall₂ IsItem l Q) (v : Nat) : Holding l v ↔ Covered Q v := by
  constructor
  · rintro ⟨r, hr, hb⟩
    obtain ⟨q, hq, hi⟩ := items_left h r hr
    rw [hi.lo, hi.hi] at hb
    exact ⟨q, hq, hb⟩
  · rintro ⟨q, hq, hb⟩
    obtain ⟨r, hr, hi⟩ := items_right h q hq
    rw [← hi.lo, ← hi.hi] at hb
    exact ⟨r, hr, hb⟩

theorem items_runs {l : List Range} {Q : List AccessItem} (h : List.Forall₂ IsItem l Q) {r : Range} {q : AccessItem} (hi : IsItem r q) (a : Nat) :
    RunStarts l a r ↔ StartOf Q a q.lo := by
  simp only [RunStarts, StartOf, items_holding h, hi.lo]

theorem items_alone {l : List Range} {Q : List AccessItem} (h : List.Forall₂ IsItem l Q) {r : Range} {q : AccessItem} (hi : IsItem r q) :
    StandsAlone l r ↔ Alone Q q := by
  unfold StandsAlone Alone
  rw [hi.span, hi.lo, hi.hi]
  refine and_congr_right fun _ => ⟨fun h' s hs hm => ?_, fun h' s hs hm => ?_⟩
  · obtain ⟨r', hr', hi'⟩ := items_right h s hs
    have := h' r' hr' (by rw [hi'.lo, hi'.hi]; exact hm)
    rw [hi'.span, hi'.lo] at this
    exact this
  · obtain ⟨q', hq', hi'⟩ := items_left h s hs
    rw [hi'.span, hi'.lo]
    exact h' q' hq' (by rw [← hi'.lo, ← hi'.hi]; exact hm)

theorem forall₂_pairwise {α β : Type} {R : α → β → Prop} {P : α → α → Prop} {S : β → β → Prop} {l : List α} {Q : List β}
    (h : List.Forall₂ R l Q) (hps : ∀ a b c d, R a c → R b d → (P a b ↔ S c d)) : l.Pairwise P ↔ Q.Pairwise S := by
  induction h with
  | nil => exact ⟨fun _ => .nil, fun _ => .nil⟩
  | @cons a c l Q hac hl ih =>
    rw [List.pairwise_cons, List.pairwise_cons, ih]
    have : (∀ b ∈ l, P a b) ↔ ∀ d ∈ Q, S c d := by
      clear ih
      induction hl with
      | nil => exact ⟨fun _ _ h => (nomatch h), fun _ _ h => (nomatch h)⟩
      | @cons b d l Q hbd _ ih2 =>
        rw [List.forall_mem_cons, List.forall_mem_cons, ih2, hps a b c d hac hbd]
    rw [this]

theorem pairwise_three {α : Type} {P : α → α → Prop} {l : List α} (h : l.Pairwise P) {a b : α} (ha : a ∈ l) (hb : b ∈ l) : a = b ∨ P a b ∨ P b a := by
  induction l with
  | nil => cases ha
  | cons x l ih =>
    rw [List.pairwise_cons] at h
    rcases List.mem_cons.1 ha with e | ha' <;> rcases List.mem_cons.1 hb with e' | hb'
    · exact .inl (e.trans e'.symm)
    · exact .inr (.inl (e ▸ h.1 b hb'))
    · exact .inr (.inr (e' ▸ h.1 a ha'))
    · exact ih h.2 ha' hb'

theorem items_masks {l : List Range} {Q : List AccessItem} (h : List.Forall₂ IsItem l Q) : MasksAgree l ↔ Joinable Q := by
  unfold MasksAgree Joinable
  refine forall₂_pairwise h fun r s q t hq ht => ?_
  simp only [items_runs h hq, items_runs h ht, hq.bits, ht.bits]
  constructor
  · intro h' a h4 h1 h2
    have := h' a h1 h2
    rw [leastBits, if_pos h4] at this
    omega
  · intro h' a h1 h2
    unfold leastBits
    split
    · rename_i h4
      have := h' a h4 h1 h2
      omega
    · omega

theorem items_kept {l : List Range} {Q : List AccessItem} (h : List.Forall₂ IsItem l Q) (hs : ∀ r ∈ l, Sound r) (a : Addr) :
    KeptBy l a ↔ LeftOver Q (ip a.getIpv6.addr) := by
  have key : ∀ r ∈ l, ∀ q, IsItem r q →
      ((between (ip a.getIpv6.addr) (first r) (last r) ∨ (StandsAlone l r ∧ r.matchAddr a = .ok true))
        ↔ (between (ip a.getIpv6.addr) q.lo q.hi ∨ (Alone Q q ∧ InNetwork (ip a.getIpv6.addr) q.lo q.bits))) := by
    intro r hr q hi
    rw [hi.lo, hi.hi, items_alone h hi]
    refine or_congr_right (and_congr_right fun hal => ?_)
    obtain ⟨k, hk, hm⟩ := single_network (hs r hr) (hi.span.trans hal.1) (by rw [hi.bits]; omega)
    rw [hi.bits] at hk
    have : k = q.bits := by omega
    rw [hm, this, hi.lo]
  constructor
  · rintro ⟨r, hr, h'⟩
    obtain ⟨q, hq, hi⟩ := items_left h r hr
    exact ⟨q, hq, (key r hr q hi).1 h'⟩
  · rintro ⟨q, hq, h'⟩
    obtain ⟨r, hr, hi⟩ := items_right h q hq
    exact ⟨r, hr, (key r hr q hi).2 h'⟩

theorem item_order {t : Str} {q : AccessItem} (h : ItemOf t q) : q.lo ≤ q.hi := by
  cases h with
  | span _ _ hle => exact hle
  | _ => exact Nat.le_refl _

theorem items_order {d : Prop} {es : List Str} {Q : List AccessItem} (h : ItemsOf d es Q) : ∀ q ∈ Q, q.lo ≤ q.hi ∧ (q.span = false → q.lo = q.hi) ∧
    (q.span = true → q.bits = 128) := by
  induction h with
  | nil => exact fun q hq => nomatch hq
  | item _ hq _ ih =>
    intro q' hq'
    rcases List.mem_cons.1 hq' with rfl | hq'
    · refine ⟨item_order hq, ?_, ?_⟩ <;> cases hq <;> simp
    · exact ih q' hq'
  | drop _ _ _ _ ih => exact ih

/-! ## C110 -/

/-- C110: a parser which merges reads a list of networks and ranges without an error; it throws exactly when entries cannot be joined, and otherwise
the list returned matches exactly what is left of them. -/
theorem C110_exact (env : ParseEnv) (p : Parser) (inp : Str) (Q : List AccessItem) (h : ReadsAccess p) (hm : p.config.sort &&& SORT_MERGE ≠ 0)
    (hq : WritesItems p inp Q) :
    (Parser.parse env inp p).1.getErrorCount = p.getErrorCount ∧ (Parser.parse env inp p).1.errorMessages = p.errorMessages
      ∧ ((Parser.parse env inp p).2 = .throw .outOfRange ↔ ¬ Joinable Q)
      ∧ (Joinable Q → ∃ l, (Parser.parse env inp p).2 = .ok l
          ∧ ∀ a : Addr, ∃ b, addressMatchRanges l a = .ok b ∧ (b = true ↔ LeftOver Q (ip a.getIpv6.addr))) := by
  obtain ⟨l, h1, h2⟩ := items_read env h hq
  obtain ⟨e1, e2, _, _, _⟩ := parse_sort env inp p
  rw [h1] at e1 e2
  have hl : (Parser.parse env inp (unsortedOf p)).2 = .ok l := by rw [h1]
  have hf : ∀ r ∈ l, (r.hasFrom = true ∨ r.lo.getMaskSize = 128) ∧ first r ≤ last r := fun r hr => by
    obtain ⟨q, hqQ, hi⟩ := items_left h2 r hr
    refine ⟨hi.plain, ?_⟩
    rw [hi.lo, hi.hi]
    exact (items_order hq q hqQ).1
  obtain ⟨t1, t2⟩ := C103_throws_iff env inp p hm l hl fun r hr => (hf r hr).2
  rw [items_masks h2] at t1 t2
  refine ⟨e2.trans (unsortedOf_error p).2, e1.trans (unsortedOf_error p).1, t1, fun hj => ?_⟩
  obtain ⟨l', h3⟩ := t2.2 hj
  refine ⟨l', h3, fun a => ?_⟩
  obtain ⟨b, j1, j2⟩ := C104_exact env inp p hm l l' hl hf h3 a
  exact ⟨b, j1, j2.trans (items_kept h2 (sound_read hl hf) a)⟩

/-- C110: a list of ranges and of addresses alone is always merged, and matches exactly the addresses which are covered. -/
theorem C110_ranges (env : ParseEnv) (p : Parser) (inp : Str) (Q : List AccessItem) (h : ReadsAccess p) (hm : p.config.sort &&& SORT_MERGE ≠ 0)
    (hq : WritesItems p inp Q) (hk : ∀ q ∈ Q, q.bits = 128) :
    ∃ l, (Parser.parse env inp p).2 = .ok l
      ∧ ∀ a : Addr, ∃ b, addressMatchRanges l a = .ok b ∧ (b = true ↔ Covered Q (ip a.getIpv6.addr)) := by
  obtain ⟨_, _, _, h2⟩ := C110_exact env p inp Q h hm hq
  obtain ⟨l, h3, h4⟩ := h2 (List.pairwise_of_forall_mem_list fun q hq s hs _ _ _ _ => by
    rw [hk q hq, hk s hs]
    decide)
  refine ⟨l, h3, fun a => ?_⟩
  obtain ⟨b, j1, j2⟩ := h4 a
  refine ⟨b, j1, j2.trans ?_⟩
  constructor
  · rintro ⟨q, hqQ, hb | ⟨_, hx⟩⟩
    · exact ⟨q, hqQ, hb⟩
    · refine ⟨q, hqQ, ?_⟩
      rw [InNetwork, hk q hqQ] at hx
      simp only [Nat.sub_self, Nat.pow_zero, Nat.div_one] at hx
      rw [hx]
      exact ⟨Nat.le_refl _, (items_order hq q hqQ).1⟩
  · rintro ⟨q, hqQ, hb⟩
    exact ⟨q, hqQ, .inl hb⟩

/-- C110: when no two entries overlap or touch, the list is merged and matches exactly the addresses of the networks and of the ranges. -/
theorem C110_apart (env : ParseEnv) (p : Parser) (inp : Str) (Q : List AccessItem) (h : ReadsAccess p) (hm : p.config.sort &&& SORT_MERGE ≠ 0)
    (hq : WritesItems p inp Q) (ha : Q.Pairwise fun q s => ¬ meetOrTouch q.lo q.hi s.lo s.hi) :
    ∃ l, (Parser.parse env inp p).2 = .ok l
      ∧ ∀ a : Addr, ∃ b, addressMatchRanges l a = .ok b ∧ (b = true ↔ ∃ q ∈ Q, InItem (ip a.getIpv6.addr) q) := by
  obtain ⟨_, _, _, h2⟩ := C110_exact env p inp Q h hm hq
  have hord := items_order hq
  obtain ⟨l0, r1, r2⟩ := items_read env h hq
  have hf : ∀ r ∈ l0, first r ≤ last r := fun r hr => by
    obtain ⟨q, hqQ, hi⟩ := items_left r2 r hr
    rw [hi.lo, hi.hi]
    exact (hord q hqQ).1
  have hj : Joinable Q := by
    rw [← items_masks r2]
    refine masksAgree_apart hf ?_
    rw [forall₂_pairwise r2 (S := fun q s => ¬ meetOrTouch q.lo q.hi s.lo s.hi)]
    · exact ha
    · intro r s q t h1 h2
      rw [h1.lo, h1.hi, h2.lo, h2.hi]
  obtain ⟨l, h3, h4⟩ := h2 hj
  have hsame : ∀ q ∈ Q, ∀ s ∈ Q, meetOrTouch s.lo s.hi q.lo q.hi → s = q := by
    refine fun q hqQ s hsQ hm' => Classical.byContradiction fun hne => ?_
    rcases pairwise_three ha hqQ hsQ with h | h | h
    · exact hne h.symm
    · exact h ⟨hm'.2, hm'.1⟩
    · exact h hm'
  refine ⟨l, h3, fun a => ?_⟩
  obtain ⟨b, j1, j2⟩ := h4 a
  refine ⟨b, j1, j2.trans ⟨?_, ?_⟩⟩
  · rintro ⟨q, hqQ, hb | ⟨hal, hx⟩⟩
    · refine ⟨q, hqQ, ?_⟩
      unfold InItem
      split
      · exact hb
      · rename_i hs
        have := (hord q hqQ).2.1 (Bool.not_eq_true _ ▸ hs)
        have h1 := hb.1
        have h2 := hb.2
        have : ip a.getIpv6.addr = q.lo := by omega
        rw [this]
        exact inNetwork_self _ _
    · refine ⟨q, hqQ, ?_⟩
      rw [InItem, if_neg (by rw [hal.1]; exact Bool.false_ne_true)]
      exact hx
  · rintro ⟨q, hqQ, hx⟩
    refine ⟨q, hqQ, ?_⟩
    unfold InItem at hx
    split at hx
    · exact .inl hx
    · rename_i hs
      have hs' : q.span = false := Bool.not_eq_true _ ▸ hs
      exact .inr ⟨⟨hs', fun s hsQ hm' => by rw [hsame q hqQ s hsQ hm']; exact ⟨hs', rfl⟩⟩, hx⟩

/-! ### Examples -/

theorem mergeRangeParser_reads : ReadsAccess mergeRangeParser where
  list := by unfold ListMode; decide
  comments := ⟨by decide, by decide⟩
  mask := by decide
  lookup := by decide
  protocol := by decide
  port := by decide
  defaultPort := by decide
  mask4 := by decide
  mask6 := by decide
  range := by decide

theorem addressOf_dotted {v : Nat} (hv : v < 2 ^ 32) : AddressOf (dotted v) (0xFFFF00000000 + v) := .inl ⟨v, hv, rfl, rfl⟩

/-- C110_exact: of the network which touches a range only the first address is left. -/
theorem C110_touching : ∃ l, (Parser.parse sampleEnv "10.0.1.0/24,10.0.0.9-10.0.0.255".toList mergeRangeParser).2 = .ok l
    ∧ addressMatchRanges l (sampleV4 10 0 1 0) = .ok true ∧ addressMatchRanges l (sampleV4 10 0 1 5) = .ok false := by
  have hf : fields (separates mergeRangeParser) "10.0.1.0/24,10.0.0.9-10.0.0.255".toList = ["10.0.1.0/24".toList, "10.0.0.9-10.0.0.255".toList] := by
    decide +kernel
  have hq : WritesItems mergeRangeParser "10.0.1.0/24,10.0.0.9-10.0.0.255".toList
      [⟨0xFFFF0A000100, 0xFFFF0A000100, 120, false⟩, ⟨0xFFFF0A000009, 0xFFFF0A0000FF, 128, true⟩] := by
    unfold WritesItems
    rw [hf]
    refine .item (trims_self (by decide) (by decide)) (.network ?_) (.item (trims_self (by decide) (by decide)) (.span (.bare4 (by decide)) ?_ (by decide)) .nil)
    · exact .v4 (v := 0x0A000100) (s := "24".toList) (by decide) (by decide) (by decide) (by decide)
    · exact .both (addressOf_dotted (v := 0x0A000009) (by decide)) (addressOf_dotted (v := 0x0A0000FF) (by decide))
  obtain ⟨_, _, _, h⟩ := C110_exact sampleEnv mergeRangeParser _ _ mergeRangeParser_reads (by decide) hq
  obtain ⟨l, h1, h2⟩ := h (List.pairwise_of_forall_mem_list fun q hq s hs _ _ _ _ => by
    simp only [List.mem_cons, List.not_mem_nil, or_false] at hq hs
    rcases hq with rfl | rfl <;> rcases hs with rfl | rfl <;> decide)
  refine ⟨l, h1, ?_, ?_⟩
  · obtain ⟨b, j1, j2⟩ := h2 (sampleV4 10 0 1 0)
    rw [j1, j2.2 ⟨_, List.mem_cons_self, .inl (by unfold between; decide +kernel)⟩]
  · obtain ⟨b, j1, j2⟩ := h2 (sampleV4 10 0 1 5)
    have : ip (sampleV4 10 0 1 5).getIpv6.addr = 0xFFFF0A000105 := by decide +kernel
    rw [this] at j2
    rw [j1]
    cases b with
    | false => rfl
    | true =>
      exfalso
      obtain ⟨q, hq, hx⟩ := j2.1 rfl
      simp only [List.mem_cons, List.not_mem_nil, or_false] at hq
      rcases hq with rfl | rfl
      · rcases hx with hx | ⟨hn, _⟩
        · exact absurd hx (by unfold between; decide)
        · have := (hn.2 ⟨0xFFFF0A000009, 0xFFFF0A0000FF, 128, true⟩ (by simp) (by unfold meetOrTouch; decide)).1
          cases this
      · rcases hx with hx | ⟨hn, _⟩
        · exact absurd hx (by unfold between; decide)
        · exact absurd hn.1 (by decide)

/-- C110_apart on a network and a range, and C110_ranges on two ranges of which one is written the wrong way and left out. -/
example : ∃ l, (Parser.parse sampleEnv "10.0.2.0/24,10.0.0.9-10.0.0.255".toList mergeRangeParser).2 = .ok l
    ∧ addressMatchRanges l (sampleV4 10 0 2 5) = .ok true := by
  have hf : fields (separates mergeRangeParser) "10.0.2.0/24,10.0.0.9-10.0.0.255".toList = ["10.0.2.0/24".toList, "10.0.0.9-10.0.0.255".toList] := by
    decide +kernel
  have hq : WritesItems mergeRangeParser "10.0.2.0/24,10.0.0.9-10.0.0.255".toList
      [⟨0xFFFF0A000200, 0xFFFF0A000200, 120, false⟩, ⟨0xFFFF0A000009, 0xFFFF0A0000FF, 128, true⟩] := by
    unfold WritesItems
    rw [hf]
    refine .item (trims_self (by decide) (by decide)) (.network ?_) (.item (trims_self (by decide) (by decide)) (.span (.bare4 (by decide)) ?_ (by decide)) .nil)
    · exact .v4 (v := 0x0A000200) (s := "24".toList) (by decide) (by decide) (by decide) (by decide)
    · exact .both (addressOf_dotted (v := 0x0A000009) (by decide)) (addressOf_dotted (v := 0x0A0000FF) (by decide))
  obtain ⟨l, h1, h2⟩ := C110_apart sampleEnv mergeRangeParser _ _ mergeRangeParser_reads (by decide) hq (by
    refine .cons (fun s hs => ?_) (.cons (fun s hs => nomatch hs) .nil)
    rw [List.mem_singleton] at hs
    rw [hs]
    unfold meetOrTouch
    decide)
  obtain ⟨b, j1, j2⟩ := h2 (sampleV4 10 0 2 5)
  exact ⟨l, h1, by rw [j1, j2.2 ⟨_, List.mem_cons_self, by unfold InItem InNetwork; decide +kernel⟩]⟩

/-- A parser which merges and leaves out empty ranges. -/
def mergeNoEmptyParser : Parser := ParserOp.runAll [(sampleEnv, .setSortOrder (SORT_MERGE ||| SORT_NO_EMPTY))] mergeRangeParser

example : ∃ l, (Parser.parse sampleEnv "10.0.0.9-10.0.0.1,10.0.0.2-10.0.0.4,-10.0.0.5".toList mergeNoEmptyParser).2 = .ok l
    ∧ addressMatchRanges l (sampleV4 10 0 0 5) = .ok true := by
  have hf : fields (separates mergeNoEmptyParser) "10.0.0.9-10.0.0.1,10.0.0.2-10.0.0.4,-10.0.0.5".toList
      = ["10.0.0.9-10.0.0.1".toList, "10.0.0.2-10.0.0.4".toList, "-10.0.0.5".toList] := by
    decide +kernel
  have hq : WritesItems mergeNoEmptyParser "10.0.0.9-10.0.0.1,10.0.0.2-10.0.0.4,-10.0.0.5".toList
      [⟨0xFFFF0A000002, 0xFFFF0A000004, 128, true⟩, ⟨0xFFFF0A000005, 0xFFFF0A000005, 128, false⟩] := by
    unfold WritesItems
    rw [hf]
    refine .drop (by decide) (trims_self (by decide) (by decide)) ⟨_, _, _, .bare4 (by decide),
        .both (addressOf_dotted (v := 0x0A000009) (by decide)) (addressOf_dotted (v := 0x0A000001) (by decide)), _, _, rfl, rfl, by decide⟩
      (.item (trims_self (by decide) (by decide)) (.span (.bare4 (by decide)) ?_ (by decide))
        (.item (trims_self (by decide) (by decide)) (.stop (.bare4 (by decide)) ?_) .nil))
    · exact .both (addressOf_dotted (v := 0x0A000002) (by decide)) (addressOf_dotted (v := 0x0A000004) (by decide))
    · exact .stop (addressOf_dotted (v := 0x0A000005) (by decide))
  obtain ⟨l, h1, h2⟩ := C110_ranges sampleEnv mergeNoEmptyParser _ _
    { list := by unfold ListMode; decide, comments := ⟨by decide, by decide⟩, mask := by decide, lookup := by decide, protocol := by decide,
      port := by decide, defaultPort := by decide, mask4 := by decide, mask6 := by decide, range := by decide }
    (by decide) hq (by simp)
  obtain ⟨b, j1, j2⟩ := h2 (sampleV4 10 0 0 5)
  exact ⟨l, h1, by rw [j1, j2.2 ⟨_, List.mem_cons_of_mem _ List.mem_cons_self, by unfold between; decide +kernel⟩]⟩

end Verif
