import Verif.Props.MergeCanonical
import Verif.Props.RangePrint
import Verif.Props.ParserTotal

/-!
# Property C101: the text of a merged list is a normal form
-/

namespace Verif

open Spec Inet

/-- The text of a list of ranges: their addresses, separated by commas. -/
def listText (db : NetDb) (l : List Range) : Res Str := Range.toStrAll db STRING_IP_ADDRESS ",".toList l true

/-- A parser which reads such texts: addresses and ranges separated by commas, without lookups, masks, comments and default port. -/
structure ReadsNormal (p : Parser) : Prop where
  lookup : p.config.flags .addressLookup = false
  mask : p.config.flags .mask = false
  range : p.config.flags .addressRange = true
  commas : p.config.flags .multiAddressesCommas = true
  comments : NoComments p
  protocol : p.config.protocol = -1 ∨ p.config.protocol = IPPROTO_IP ∨ p.config.protocol = IPPROTO_TCP ∨ p.config.protocol = IPPROTO_UDP
  port : p.config.flags .requiredPort = false
  defaultPort : p.config.defaultPort = -1

/-! ### Lemmas -/

theorem bounds_first {r s : Range} (h : boundsOf r = boundsOf s) (hd : Defined r) : first r = first s ∧ last r = last s := by
  unfold boundsOf at h
  rw [Prod.mk.injEq] at h
  unfold first last fromIp toIp
  unfold Defined at hd
  obtain ⟨h1, h2⟩ := h
  cases hf : r.hasFrom <;> cases ht : r.hasTo <;> cases hf' : s.hasFrom <;> cases ht' : s.hasTo <;> simp_all

theorem bounds_map : ∀ {l m : List Range}, (∀ r ∈ l, Defined r) → l.map boundsOf = m.map boundsOf →
    l.map (fun r => (first r, last r)) = m.map fun r => (first r, last r)
  | [], [], _, _ => rfl
  | [], _ :: _, _, h => by simp at h
  | _ :: _, [], _, h => by simp at h
  | r :: l, s :: m, hd, h => by
    rw [List.map_cons, List.map_cons, List.cons.injEq] at h
    obtain ⟨e1, e2⟩ := bounds_first h.1 (hd r List.mem_cons_self)
    rw [List.map_cons, List.map_cons, e1, e2, bounds_map (fun r hr => hd r (List.mem_cons_of_mem _ hr)) h.2]

theorem pairwise_mem {α : Type} {R : α → α → Prop} (hR : ∀ a b, R a b → R b a) {l : List α} (h : l.Pairwise R) :
    ∀ a ∈ l, ∀ b ∈ l, a ≠ b → R a b := by
  induction h with
  | nil => exact fun _ h => nomatch h
  | cons h1 _ ih =>
    intro a ha b hb hab
    rcases List.mem_cons.1 ha with rfl | ha'
    · rcases List.mem_cons.1 hb with rfl | hb'
      · exact absurd rfl hab
      · exact h1 b hb'
    · rcases List.mem_cons.1 hb with rfl | hb'
      · exact hR _ _ (h1 a ha')
      · exact ih a ha' b hb' hab

theorem hasAddresses_iff {r : Range} (hd : Defined r) : HasAddresses r ↔ first r ≤ last r := by
  unfold HasAddresses
  constructor
  · rintro ⟨_, h⟩
    unfold first last fromIp toIp
    cases hf : r.hasFrom <;> cases ht : r.hasTo
    · unfold Defined at hd
      rw [hf, ht] at hd
      exact absurd hd (by decide)
    · simp
    · simp
    · simpa using h ⟨hf, ht⟩
  · refine fun h => ⟨hd, fun hc => ?_⟩
    rw [first_of_complete hc, last_of_complete hc] at h
    exact h

theorem ip_text (db : NetDb) {a b : Addr} (h : ip a.getIpv6.addr = ip b.getIpv6.addr) :
    a.toIpv4or6String db STRING_IP_ADDRESS = b.toIpv4or6String db STRING_IP_ADDRESS := by
  have hb : a.bytes = b.bytes := ip_inj h
  have h4 : a.isIpv4 = b.isIpv4 := by rw [Bool.eq_iff_iff, isIpv4_iff, isIpv4_iff, hb]
  have hd : a.isDefault = b.isDefault := by
    rw [Bool.eq_iff_iff, isDefault_iff, isDefault_iff]
    rw [hb]
  rw [Addr.toIpv4or6String, Addr.toIpv4or6String, toIpv4String_address, toIpv4String_address, toIpv6String_address, toIpv6String_address,
    h4, hd, hb]

/-- The text is a function of the bounds. -/
theorem range_text (db : NetDb) {r s : Range} (h : boundsOf r = boundsOf s) (hr : HasAddresses r) (hs : HasAddresses s) :
    r.toStr db STRING_IP_ADDRESS = s.toStr db STRING_IP_ADDRESS := by
  have he : ∀ {r : Range}, HasAddresses r → r.isEmpty = false := by
    intro r h
    rw [← Bool.not_eq_true, isEmpty_iff]
    rintro ⟨h1, h2⟩
    exact absurd h2 (Nat.not_lt.2 (h.2 h1))
  have hm : STRING_IP_ADDRESS &&& (STRING_IP_ADDRESS ||| STRING_IP_BRACKET_ADDRESS) = STRING_IP_ADDRESS := by decide
  unfold boundsOf at h
  rw [Prod.mk.injEq] at h
  obtain ⟨h1, h2⟩ := h
  unfold Range.toStr
  rw [he hr, he hs, hm]
  cases hf : r.hasFrom <;> cases ht : r.hasTo <;> cases hf' : s.hasFrom <;> cases ht' : s.hasTo <;>
    simp_all
  · rw [ip_text db h2]
  · exact ip_text db h1
  · rw [ip_text db h1, ip_text db h2]

theorem list_text (db : NetDb) {l m : List Range} (h : l.map boundsOf = m.map boundsOf) (hl : ∀ r ∈ l, HasAddresses r)
    (hm : ∀ r ∈ m, HasAddresses r) : listText db l = listText db m := by
  unfold listText
  generalize true = b
  induction l generalizing m b with
  | nil =>
    cases m with
    | nil => rfl
    | cons s m => simp at h
  | cons r l ih =>
    cases m with
    | nil => simp at h
    | cons s m =>
      rw [List.map_cons, List.map_cons, List.cons.injEq] at h
      rw [Range.toStrAll, Range.toStrAll, range_text db h.1 (hl r List.mem_cons_self) (hm s List.mem_cons_self),
        ih h.2 (fun r hr => hl r (List.mem_cons_of_mem _ hr)) (fun r hr => hm r (List.mem_cons_of_mem _ hr)) false]

/-- Lists which agree in a key, and of which the elements with the same key agree. -/
theorem map_eq_of_key {α κ β : Type} (f : α → κ) (g : α → β) (M : List α) (hinj : ∀ y ∈ M, ∀ z ∈ M, f y = f z → g y = g z) :
    ∀ (l m : List α), (∀ y ∈ m, y ∈ M) → (∀ x ∈ l, ∃ y ∈ M, f x = f y ∧ g x = g y) → l.map f = m.map f → l.map g = m.map g
  | [], [], _, _, _ => rfl
  | [], _ :: _, _, _, h => by simp at h
  | _ :: _, [], _, _, h => by simp at h
  | x :: l, y :: m, h1, h2, h => by
    rw [List.map_cons, List.map_cons, List.cons.injEq] at h
    obtain ⟨z, hz, e1, e2⟩ := h2 x List.mem_cons_self
    rw [List.map_cons, List.map_cons, map_eq_of_key f g M hinj l m (fun y hy => h1 y (List.mem_cons_of_mem _ hy))
      (fun x hx => h2 x (List.mem_cons_of_mem _ hx)) h.2, e2, hinj z hz y (h1 y List.mem_cons_self) (e1.symm.trans h.1)]

/-- Ranges which neither meet nor touch are not merged. -/
theorem mergeLoop_apart : ∀ (cur : Range) (l : List Range), (∀ r ∈ cur :: l, Defined r ∧ first r ≤ last r) →
    (cur :: l).Pairwise (fun a b => ¬ meetOrTouch (first a) (last a) (first b) (last b)) → Parser.mergeLoop cur l = .ok (cur :: l)
  | cur, [], _, _ => rfl
  | cur, next :: l, hd, hp => by
    rw [List.pairwise_cons] at hp
    have h1 := hp.1 next List.mem_cons_self
    obtain ⟨hc, hc'⟩ := hd cur List.mem_cons_self
    obtain ⟨hn, hn'⟩ := hd next (List.mem_cons_of_mem _ List.mem_cons_self)
    obtain ⟨c1, _, _⟩ := union_cases cur next hc
    have h2 := c1 (by
      unfold meetOrTouch at h1
      omega)
    have ih := mergeLoop_apart next l (fun r hr => hd r (List.mem_cons_of_mem _ hr)) hp.2
    rw [Parser.mergeLoop, h2, Res.bind_ok]
    have e : (Range.default.isDefined && !Range.default.isEmpty) = false := by decide
    rw [e, ih]
    rfl

theorem sortResult_apart (s : BitVec 64) {l : List Range} (hl : ∀ r ∈ l, Defined r ∧ first r ≤ last r)
    (hp : l.Pairwise (fun a b => ¬ meetOrTouch (first a) (last a) (first b) (last b))) (hm : s &&& SORT_MERGE ≠ 0) :
    ∃ l', Parser.sortResult s l = .ok l' ∧ l'.Perm l := by
  have hstep : mergeStep s = Parser.mergeAll := funext fun l => if_pos hm
  rw [sortResult_eq, if_pos (merge_or_full s hm), hstep]
  obtain ⟨l1, e1, hs1⟩ := Parser.stableSort_ok (Parser.orders_lt fun r hr => (hl r hr).1)
  have hd1 : ∀ r ∈ l1, Defined r ∧ first r ≤ last r := fun r hr => hl r (hs1.perm.mem_iff.1 hr)
  have hp1 : l1.Pairwise (fun a b => ¬ meetOrTouch (first a) (last a) (first b) (last b)) := by
    refine (List.Perm.pairwise_iff ?_ hs1.perm).2 hp
    intro a b h h3
    apply h
    unfold meetOrTouch at h3 ⊢
    omega
  have hmerge : Parser.mergeAll l1 = .ok l1 := by
    cases l1 with
    | nil => rfl
    | cons cur l1 => exact mergeLoop_apart cur l1 hd1 hp1
  obtain ⟨l', e2, hp2, _⟩ := familyStep_ok s (l := l1) fun r hr => (hd1 r hr).1
  refine ⟨l', ?_, hp2.trans hs1.perm⟩
  rw [e1, Res.bind_ok, hmerge, Res.bind_ok]
  exact e2

theorem intervals_all {l : List Range} (h : ∀ r ∈ l, first r ≤ last r) : intervals l = l.map fun r => (first r, last r) := by
  rw [intervals, List.filter_eq_self.2 fun r hr => decide_eq_true (h r hr)]

theorem ReadsNormal.unsorted {p : Parser} (h : ReadsNormal p) : ReadsNormal (unsortedOf p) := by
  have hcfg := unsortedOf_config p
  exact {
    lookup := by rw [hcfg]; exact h.lookup
    mask := by rw [hcfg]; exact h.mask
    range := by rw [hcfg]; exact h.range
    commas := by rw [hcfg]; exact h.commas
    comments := by rw [NoComments, hcfg]; exact h.comments
    protocol := by rw [hcfg]; exact h.protocol
    port := by rw [hcfg]; exact h.port
    defaultPort := by rw [hcfg]; exact h.defaultPort }

/-- The texts of the ranges are read back one by one. -/
theorem parseEach_texts {env : ParseEnv} {db : NetDb} {q : Parser} (h : ReadsNormal q) (hs : Unsorted q) {m : List Range} {ts : List Str}
    (hts : List.Forall₂ (fun r t => r.toStr db STRING_IP_ADDRESS = .ok t ∧ HasAddresses r) m ts) :
    ∃ l, parseEach env ts q = (q, .ok l) ∧ l.map boundsOf = m.map boundsOf := by
  induction hts with
  | nil => exact ⟨[], rfl, rfl⟩
  | @cons r t m ts hrt _ ih =>
    obtain ⟨l, h1, h2⟩ := ih
    obtain ⟨t', h3, hw⟩ := C87_text db r hrt.2
    rw [hrt.1] at h3
    obtain rfl := Res.ok.inj h3
    have hone : OneEntry q t := ⟨Parser.bounds_ne hw, listed_separates (.range (written_bare hw _) hw) q, h.comments⟩
    obtain ⟨r', h4, h5, _⟩ := C87_roundtrip env db q r hrt.2 t hrt.1 ⟨h.lookup, h.mask, h.range, h.protocol, hone, hs⟩ h.port h.defaultPort
    exact ⟨r' :: l, by simp only [parseEach, h4, h1, List.singleton_append], by rw [List.map_cons, List.map_cons, h5, h2]⟩

theorem parse_texts {env : ParseEnv} {db : NetDb} {q : Parser} (h : ReadsNormal q) (hs : Unsorted q) {m : List Range}
    (hm : ∀ r ∈ m, HasAddresses r) {s : Str} (hst : listText db m = .ok s) :
    ∃ l, Parser.parse env s q = (q, .ok l) ∧ l.map boundsOf = m.map boundsOf := by
  have htexts : ∃ ts : List Str, List.Forall₂ (fun r t => r.toStr db STRING_IP_ADDRESS = .ok t ∧ HasAddresses r) m ts := by
    clear hst
    induction m with
    | nil => exact ⟨[], .nil⟩
    | cons r l ih =>
      obtain ⟨ts, h1⟩ := ih fun r hr => hm r (List.mem_cons_of_mem _ hr)
      obtain ⟨t, h2, _⟩ := C87_text db r (hm r List.mem_cons_self)
      exact ⟨t :: ts, .cons ⟨h2, hm r List.mem_cons_self⟩ h1⟩
  obtain ⟨ts, hts⟩ := htexts
  have h1 := Ostream.toStrAll_of (db := db) ",".toList (hts.imp fun _ _ h => h.1) true
  rw [listText] at hst
  rw [hst, if_pos rfl] at h1
  obtain rfl := Res.ok.inj h1
  have hright : ∀ t ∈ ts, t ≠ [] ∧ ∀ x ∈ t, separates q x = false := fun t ht => by
    obtain ⟨r, _, k2, k3⟩ := forall2_right hts t ht
    obtain ⟨t', h3, hw⟩ := C87_text db r k3
    rw [k2] at h3
    obtain rfl := Res.ok.inj h3
    exact ⟨Parser.bounds_ne hw, listed_separates (.range (written_bare hw _) hw) q⟩
  have hlist : ListMode q := .inl h.commas
  rw [C41_entrywise env _ q hlist h.comments hs]
  have hf : (fields (separates q) (",".toList.intercalate ts)).filter (· ≠ []) = ts := by
    by_cases h0 : ts = []
    · subst h0
      rfl
    · rw [show ",".toList = [','] from rfl, fields_intercalate (separates q) ',' (by rw [separates, h.commas]; rfl) ts
        (fun t ht => (hright t ht).2) h0]
      exact List.filter_eq_self.2 fun t ht => by simpa using (hright t ht).1
  rw [hf]
  exact parseEach_texts h hs hts

/-! ### C101 -/

/-- C101: the text of a merged list without empty ranges exists; a parser which merges (and puts the same family first) reads it without an error
as ranges with the same bounds, in the same order, of which the text is the same. -/
theorem C101_reread (env env' : ParseEnv) (db : NetDb) (p q : Parser) (inp : Str) (m : List Range) (hp : p.config.sort &&& SORT_MERGE ≠ 0)
    (hm : (Parser.parse env inp p).2 = .ok m) (hne : ∀ r ∈ m, first r ≤ last r) (hq : ReadsNormal q) (hq' : q.config.sort &&& SORT_MERGE ≠ 0)
    (hs : SameFamilyFirst p q) :
    ∃ s m', listText db m = .ok s ∧ Parser.parse env' s q = (q, .ok m') ∧ m'.map boundsOf = m.map boundsOf ∧ listText db m' = .ok s := by
  obtain ⟨l, hl⟩ := unsorted_read hm
  have hm2 := hm
  rcases C43_merge_partial env inp p hp l hl with h | ⟨m', h, hd, hold, hapart, _⟩
  · rw [h] at hm; cases hm
  rw [h] at hm
  cases hm
  have hha : ∀ r ∈ m, HasAddresses r := fun r hr => (hasAddresses_iff (hd r hr)).2 (hne r hr)
  have hap : m.Pairwise fun a b => ¬ meetOrTouch (first a) (last a) (first b) (last b) :=
    hapart.imp_of_mem fun {a b} ha hb h => h (hne a ha) (hne b hb)
  obtain ⟨s, hst⟩ : ∃ s, listText db m = .ok s := by
    have : ∀ (b : Bool) (l : List Range), (∀ r ∈ l, HasAddresses r) → ∃ s, Range.toStrAll db STRING_IP_ADDRESS ",".toList l b = .ok s := by
      intro b l
      induction l generalizing b with
      | nil => exact fun _ => ⟨_, rfl⟩
      | cons r l ih =>
        intro hr
        obtain ⟨t, h1, _⟩ := C87_text db r (hr r List.mem_cons_self)
        obtain ⟨u, h2⟩ := ih false fun r' h' => hr r' (List.mem_cons_of_mem _ h')
        exact ⟨_, by rw [Range.toStrAll, h1, Res.bind_ok, h2, Res.bind_ok]⟩
    exact this true m hha
  obtain ⟨l2, h2, hb2⟩ := parse_texts (env := env') hq.unsorted (unsortedOf_unsorted q) hha hst
  -- what is read has the bounds of `m`
  have hmem : ∀ r' ∈ l2, ∃ r ∈ m, boundsOf r = boundsOf r' := fun r' hr' => by
    have : boundsOf r' ∈ m.map boundsOf := hb2 ▸ List.mem_map_of_mem hr'
    exact List.mem_map.1 this
  have hd2 : ∀ r' ∈ l2, Defined r' ∧ first r' ≤ last r' := fun r' hr' => by
    obtain ⟨r, hr, e⟩ := hmem r' hr'
    obtain ⟨e1, e2⟩ := bounds_first e (hd r hr)
    exact ⟨(parse_sort env' s q).2.2.2.2 l2 (by rw [h2]) |>.1 r' hr', by rw [← e1, ← e2]; exact hne r hr⟩
  have hfl : l2.map (fun r => (first r, last r)) = m.map fun r => (first r, last r) :=
    bounds_map (fun r hr => (hd2 r hr).1) hb2
  have hap2 : l2.Pairwise fun a b => ¬ meetOrTouch (first a) (last a) (first b) (last b) := by
    have h3 : (m.map fun r => (first r, last r)).Pairwise fun a b => ¬ meetOrTouch a.1 a.2 b.1 b.2 := List.pairwise_map.2 hap
    rw [← hfl] at h3
    exact List.pairwise_map.1 h3
  obtain ⟨m', h3, hperm⟩ := sortResult_apart q.config.sort hd2 hap2 hq'
  obtain ⟨e1, e2, _, _, e5⟩ := parse_sort env' s q
  have h4 : (Parser.parse env' s q).2 = .ok m' := by rw [(e5 l2 (by rw [h2])).2, h3]
  have h5 : (Parser.parse env' s q).1 = q := by
    rw [h2] at e1 e2
    have e3 : (Parser.parse env' s q).1.config = q.config := by
      obtain ⟨_, _, h6⟩ := C38_parse_deterministic env' s q.config
      exact (h6 q rfl).2.1
    rcases hx : (Parser.parse env' s q).1 with ⟨c, e, n⟩
    rw [hx] at e1 e2 e3
    have f1 := e1.trans (unsortedOf_error q).1
    have f2 := e2.trans (unsortedOf_error q).2
    dsimp only at e3 f1 f2
    rw [e3, f1, f2]
  have hhold : ∀ v, Holding l v ↔ Holding l2 v := by
    intro v
    rw [← hold v]
    have key : ∀ {k k' : List Range}, k.map (fun r => (first r, last r)) = k'.map (fun r => (first r, last r)) → Holding k v → Holding k' v := by
      rintro k k' e ⟨r, hr, hv⟩
      have : (first r, last r) ∈ k'.map fun r => (first r, last r) := e ▸ List.mem_map.2 ⟨r, hr, rfl⟩
      obtain ⟨r', hr', e'⟩ := List.mem_map.1 this
      rw [Prod.mk.injEq] at e'
      exact ⟨r', hr', by rw [e'.1, e'.2]; exact hv⟩
    exact ⟨key hfl.symm, key hfl⟩
  have hint : intervals m = intervals m' :=
    (C96_canonical env env' p q inp s hp hq' hs l l2 m m' hl (by rw [h2]) hm2 h4).2 hhold
  have hd3 : ∀ r ∈ m', Defined r ∧ first r ≤ last r := fun r hr => hd2 r (hperm.mem_iff.1 hr)
  rw [intervals_all hne, intervals_all fun r hr => (hd3 r hr).2] at hint
  have hbounds : m'.map boundsOf = m.map boundsOf := by
    refine map_eq_of_key (fun r => (first r, last r)) boundsOf m ?_ m' m (fun _ h => h) (fun x hx => ?_) hint.symm
    · intro y hy z hz e
      by_cases hyz : y = z
      · rw [hyz]
      · exfalso
        apply pairwise_mem (fun a b h h' => h (by unfold meetOrTouch at h' ⊢; omega)) hap y hy z hz hyz
        rw [Prod.mk.injEq] at e
        have := hne y hy
        unfold meetOrTouch
        omega
    · obtain ⟨y, hy, e⟩ := hmem x (hperm.mem_iff.1 hx)
      obtain ⟨f1, f2⟩ := bounds_first e (hd y hy)
      exact ⟨y, hy, by rw [f1, f2], e.symm⟩
  refine ⟨s, m', hst, Prod.ext h5 h4, hbounds, ?_⟩
  rw [list_text db hbounds (fun r hr => (hasAddresses_iff (hd3 r hr).1).2 (hd3 r hr).2) hha]
  exact hst

theorem mergeLoop_nonempty : ∀ (cur : Range) (l : List Range), (∀ r ∈ cur :: l, Defined r ∧ first r ≤ last r) →
    ∀ m, Parser.mergeLoop cur l = .ok m → ∀ r ∈ m, first r ≤ last r
  | cur, [], hd, m, h => by
    cases h
    intro r hr
    exact (hd r hr).2
  | cur, next :: l, hd, m, h => by
    obtain ⟨hc, hc'⟩ := hd cur List.mem_cons_self
    have hn := (hd next (List.mem_cons_of_mem _ List.mem_cons_self)).2
    have hskip : ∀ m', Parser.mergeLoop next l = .ok m' → ∀ r ∈ cur :: m', first r ≤ last r := by
      intro m' h' r hr
      rcases List.mem_cons.1 hr with rfl | hr
      · exact hc'
      · exact mergeLoop_nonempty next l (fun r hr => hd r (List.mem_cons_of_mem _ hr)) m' h' r hr
    rw [Parser.mergeLoop] at h
    rcases Parser.union_outcome (s := next) hc with h1 | h1 | ⟨u, h1, h2, h3, h4⟩
    · rw [h1] at h
      cases h
    · rw [h1, Res.bind_ok, show (Range.default.isDefined && !Range.default.isEmpty) = false by decide] at h
      rcases hx : Parser.mergeLoop next l with m' | e | w
      · rw [hx] at h
        cases h
        exact hskip m' hx
      · rw [hx] at h; cases h
      · rw [hx] at h; cases h
    · rw [h1, Res.bind_ok] at h
      cases hb : (u.isDefined && !u.isEmpty) with
      | true =>
        rw [hb] at h
        refine mergeLoop_nonempty u l (fun r hr => ?_) m h
        rcases List.mem_cons.1 hr with rfl | hr
        · exact ⟨h2, by omega⟩
        · exact hd r (List.mem_cons_of_mem _ (List.mem_cons_of_mem _ hr))
      | false =>
        rw [hb] at h
        rcases hx : Parser.mergeLoop next l with m' | e | w
        · rw [hx] at h
          cases h
          exact hskip m' hx
        · rw [hx] at h; cases h
        · rw [hx] at h; cases h

theorem sortResult_nonempty (s : BitVec 64) {l m : List Range} (hl : ∀ r ∈ l, Defined r ∧ first r ≤ last r)
    (h : Parser.sortResult s l = .ok m) : ∀ r ∈ m, first r ≤ last r := by
  by_cases hm : s &&& SORT_MERGE = 0
  · obtain ⟨l', h1, h2, _⟩ := sortResult_sorts s hm fun r hr => (hl r hr).1
    rw [h1] at h
    cases h
    exact fun r hr => (hl r (h2.mem_iff.1 hr)).2
  · have hstep : mergeStep s = Parser.mergeAll := funext fun l => if_pos hm
    obtain ⟨l1, e1, hs1⟩ := Parser.stableSort_ok (Parser.orders_lt fun r hr => (hl r hr).1)
    have hd1 : ∀ r ∈ l1, Defined r ∧ first r ≤ last r := fun r hr => hl r (hs1.perm.mem_iff.1 hr)
    rw [sortResult_eq, if_pos (merge_or_full s hm), hstep, e1, Res.bind_ok] at h
    rcases hx : Parser.mergeAll l1 with l2 | e | w
    · rw [hx, Res.bind_ok] at h
      have h2 : (∀ r ∈ l2, first r ≤ last r) ∧ ∀ r ∈ l2, Defined r := by
        cases l1 with
        | nil =>
          cases hx
          exact ⟨(fun _ h => nomatch h), (fun _ h => nomatch h)⟩
        | cons cur l1 =>
          refine ⟨mergeLoop_nonempty cur l1 hd1 l2 hx, ?_⟩
          rcases Parser.mergeLoop_outcome cur l1 (hd1 cur List.mem_cons_self).1 (fun r hr => (hd1 r (List.mem_cons_of_mem _ hr)).1) with
            h3 | ⟨l3, h3, h4, _⟩
          · rw [show Parser.mergeAll (cur :: l1) = Parser.mergeLoop cur l1 from rfl, h3] at hx
            cases hx
          · rw [show Parser.mergeAll (cur :: l1) = Parser.mergeLoop cur l1 from rfl, h3] at hx
            cases hx
            exact h4
      obtain ⟨l', e2, hp2, _⟩ := familyStep_ok s h2.2
      rw [e2] at h
      cases h
      exact fun r hr => h2.1 r (hp2.mem_iff.1 hr)
    · rw [hx] at h; cases h
    · rw [hx] at h; cases h

/-- C101: with `SORT_NO_EMPTY` the list has no empty range, merged or not. -/
theorem C101_no_empty (env : ParseEnv) (p : Parser) (inp : Str) (m : List Range) (h : Answerable env p.config)
    (hn : p.config.sort &&& SORT_NO_EMPTY ≠ 0) (hm : (Parser.parse env inp p).2 = .ok m) : ∀ r ∈ m, first r ≤ last r := by
  obtain ⟨l, hl⟩ := unsorted_read hm
  obtain ⟨_, _, _, _, e5⟩ := parse_sort env inp p
  obtain ⟨hd, he⟩ := e5 l hl
  have hcfg : (withSort (unsortedOf p) 0).config = { p.config with sort := 0 } := by
    rw [show (withSort (unsortedOf p) 0).config = { (unsortedOf p).config with sort := 0 } from rfl, unsortedOf_config]
  obtain ⟨l0, h0⟩ := C67_answers_partial env inp (withSort (unsortedOf p) 0) (by rw [hcfg]; exact ⟨h.lookup, h.protocol, h.mask⟩)
    (by rw [hcfg]; exact BitVec.zero_and)
  have h1 := C43_no_empty env inp (unsortedOf p) (unsortedOf_unsorted p) (by
    rw [unsortedOf_config]
    show p.config.sort &&& SORT_NO_EMPTY &&& SORT_NO_EMPTY ≠ 0
    rw [BitVec.and_assoc, BitVec.and_self]
    exact hn) l0 h0
  rw [hl] at h1
  cases h1
  rw [he] at hm
  exact sortResult_nonempty _ (fun r hr => ⟨hd r hr, by simpa using (List.mem_filter.1 hr).2⟩) hm

/-- C101: what a parser which merges and leaves out empty ranges makes of any text: the list has a text, which the same parser reads without an error
as the same ranges, which print as this text, and the list read again is matched by the same addresses as what was read at first, merged or not. -/
theorem C101_normal_form (env env' : ParseEnv) (db : NetDb) (p : Parser) (inp : Str) (h : ReadsNormal p)
    (hm : p.config.sort &&& SORT_MERGE ≠ 0) (hn : p.config.sort &&& SORT_NO_EMPTY ≠ 0) :
    ∃ l m s m', (Parser.parse env inp (unsortedOf p)).2 = .ok l ∧ (Parser.parse env inp p).2 = .ok m ∧ listText db m = .ok s
      ∧ Parser.parse env' s p = (p, .ok m') ∧ m'.map boundsOf = m.map boundsOf ∧ listText db m' = .ok s
      ∧ ∀ a : Addr, addressMatchRanges m' a = addressMatchRanges m a ∧ addressMatchRanges m a = addressMatchRanges l a := by
  have ha : Answerable env p.config := {
    lookup := fun h' => by rw [h.lookup] at h'; cases h'
    protocol := fun _ => h.protocol
    mask := fun h' => by rw [h.mask] at h'; cases h' }
  obtain ⟨l, hl⟩ := parse_reads ha inp
  obtain ⟨m, h1, h2⟩ := C96_matches env p inp h.mask l hl
  obtain ⟨s, m', h3, h4, h5, h6⟩ := C101_reread env env' db p p inp m hm h1 (C101_no_empty env p inp m ha hn h1) h hm ⟨rfl, rfl⟩
  refine ⟨l, m, s, m', hl, h1, h3, h4, h5, h6, fun a => ⟨?_, (h2 a).1⟩⟩
  obtain ⟨l', hl'⟩ := unsorted_read (p := p) (env := env') (inp := s) (m := m') (by rw [h4])
  obtain ⟨m2, h7, h8⟩ := C96_matches env' p s h.mask l' hl'
  rw [h4] at h7
  cases h7
  obtain ⟨b, j1, j2⟩ := (h2 a).2
  obtain ⟨b', j3, j4⟩ := (h8 a).2
  rw [j1, j3]
  congr 1
  have hint : intervals m' = intervals m := by
    have hd' := C43_merge_partial env' s p hm l' hl'
    rw [h4] at hd'
    rcases hd' with hd' | ⟨_, hd', hd2, _⟩
    · cases hd'
    · cases hd'
      have := bounds_map hd2 h5
      have k1 := C101_no_empty env p inp m ha hn h1
      have ha' : Answerable env' p.config := {
        lookup := fun h' => by rw [h.lookup] at h'; cases h'
        protocol := fun _ => h.protocol
        mask := fun h' => by rw [h.mask] at h'; cases h' }
      have k2 := C101_no_empty env' p s m' ha' hn (by rw [h4])
      rw [intervals_all k1, intervals_all k2, this]
  rw [Bool.eq_iff_iff, j2, j4, hint]

/-! ### Two lists with the same addresses -/

/-- C101, the other part as stated: lists which write the same addresses have the same text. -/
def C101_claim : Prop :=
  ∀ (env : ParseEnv) (db : NetDb) (p : Parser) (inp inp' : Str) (m m' : List Range), ReadsNormal p → p.config.sort &&& SORT_MERGE ≠ 0 →
    p.config.sort &&& SORT_NO_EMPTY ≠ 0 → (Parser.parse env inp p).2 = .ok m → (Parser.parse env inp' p).2 = .ok m' →
    (∀ v, Holding m v ↔ Holding m' v) → listText db m = listText db m'

/-- A range of which the text shows how it was written: one address, as one bound or as two. -/
def OneAddress (r : Range) : Prop := first r = last r

/-- C101: lists which write the same addresses have the same text when no address stands alone in them. Missing: an address alone, which may be
written as one bound or as two. -/
theorem C101_canonical_partial (env env' : ParseEnv) (db : NetDb) (p q : Parser) (inp inp' : Str) (hp : p.config.sort &&& SORT_MERGE ≠ 0)
    (hq : q.config.sort &&& SORT_MERGE ≠ 0) (hs : SameFamilyFirst p q) (m m' : List Range) (hm : (Parser.parse env inp p).2 = .ok m)
    (hm' : (Parser.parse env' inp' q).2 = .ok m') (h1 : ∀ r ∈ m, first r ≤ last r) (h1' : ∀ r ∈ m', first r ≤ last r)
    (h2 : ∀ r ∈ m, ¬ OneAddress r) (hv : ∀ v, Holding m v ↔ Holding m' v) : listText db m = listText db m' := by
  obtain ⟨l, hl⟩ := unsorted_read hm
  obtain ⟨l', hl'⟩ := unsorted_read hm'
  have hmm := hm
  have hmm' := hm'
  rcases C43_merge_partial env inp p hp l hl with h | ⟨_, h, hd, hold, _⟩
  · rw [h] at hm; cases hm
  rw [h] at hm
  cases hm
  rcases C43_merge_partial env' inp' q hq l' hl' with h' | ⟨_, h', hd', hold', _⟩
  · rw [h'] at hm'; cases hm'
  rw [h'] at hm'
  cases hm'
  have hint := (C96_canonical env env' p q inp inp' hp hq hs l l' m m' hl hl' hmm hmm').2
    fun v => (hold v).symm.trans ((hv v).trans (hold' v))
  rw [intervals_all h1, intervals_all h1'] at hint
  have shape : ∀ r : Range, Defined r → first r < last r → boundsOf r = (some (first r), some (last r)) := by
    intro r hd hlt
    unfold boundsOf
    unfold first last fromIp toIp at hlt ⊢
    unfold Defined at hd
    cases hf : r.hasFrom <;> cases ht : r.hasTo <;> simp_all
  have hb : ∀ (k k' : List Range), (∀ r ∈ k, Defined r ∧ first r < last r) → (∀ r ∈ k', Defined r) →
      k.map (fun r => (first r, last r)) = k'.map (fun r => (first r, last r)) → k.map boundsOf = k'.map boundsOf := by
    intro k
    induction k with
    | nil =>
      intro k' _ _ e
      cases k' with
      | nil => rfl
      | cons => simp at e
    | cons r k ih =>
      intro k' g1 g2 e
      cases k' with
      | nil => simp at e
      | cons r' k' =>
        rw [List.map_cons, List.map_cons, List.cons.injEq, Prod.mk.injEq] at e
        obtain ⟨g3, g4⟩ := g1 r List.mem_cons_self
        rw [List.map_cons, List.map_cons, shape r g3 g4, shape r' (g2 r' List.mem_cons_self) (by omega), e.1.1, e.1.2,
          ih k' (fun r hr => g1 r (List.mem_cons_of_mem _ hr)) (fun r hr => g2 r (List.mem_cons_of_mem _ hr)) e.2]
  refine list_text db (hb m m' (fun r hr => ⟨hd r hr, ?_⟩) hd' hint) (fun r hr => (hasAddresses_iff (hd r hr)).2 (h1 r hr))
    (fun r hr => (hasAddresses_iff (hd' r hr)).2 (h1' r hr))
  exact Nat.lt_of_le_of_ne (h1 r hr) (h2 r hr)

/-- A parser which merges and leaves out empty ranges. -/
def normalParser : Parser := sortParser (SORT_MERGE ||| SORT_NO_EMPTY)

theorem normalParser_reads : ReadsNormal normalParser := by
  refine ⟨?_, ?_, ?_, ?_, ⟨?_, ?_⟩, .inl ?_, ?_, ?_⟩ <;> decide +kernel

/-- The text of what a call returned. -/
def resultText (r : Res (List Range)) : Option Str :=
  match r with
  | .ok l => match listText sampleDb l with
    | .ok s => some s
    | _ => none
  | _ => none

theorem result_elim {r : Res (List Range)} {x : List (Nat × Nat)} {t : Str} (h1 : resultBounds r = some x) (h2 : resultText r = some t) :
    ∃ m, r = .ok m ∧ m.map (fun r => (first r, last r)) = x ∧ listText sampleDb m = .ok t := by
  unfold resultBounds at h1
  unfold resultText at h2
  rcases r with m | e | w
  · refine ⟨m, rfl, Option.some.inj h1, ?_⟩
    dsimp only at h2
    rcases hx : listText sampleDb m with s | e | w
    · rw [hx] at h2
      exact congrArg _ (Option.some.inj h2)
    · rw [hx] at h2; cases h2
    · rw [hx] at h2; cases h2
  · cases h1
  · cases h1

theorem holding_map {m m' : List Range} (h : m.map (fun r => (first r, last r)) = m'.map fun r => (first r, last r)) (v : Nat) :
    Holding m v → Holding m' v := by
  rintro ⟨r, hr, hv⟩
  have : (first r, last r) ∈ m'.map fun r => (first r, last r) := h ▸ List.mem_map.2 ⟨r, hr, rfl⟩
  obtain ⟨r', hr', e'⟩ := List.mem_map.1 this
  rw [Prod.mk.injEq] at e'
  exact ⟨r', hr', by rw [e'.1, e'.2]; exact hv⟩

/-- C101: the range 10.0.0.1-10.0.0.1 is not printed as the address 10.0.0.1. -/
theorem C101_claim_fails : ¬ C101_claim := by
  intro h
  obtain ⟨m, h1, h2, h3⟩ := result_elim (r := (Parser.parse sampleEnv "10.0.0.1".toList normalParser).2)
    (x := [(0xFFFF0A000001, 0xFFFF0A000001)]) (t := "10.0.0.1".toList) (by decide +kernel) (by decide +kernel)
  obtain ⟨m', h1', h2', h3'⟩ := result_elim (r := (Parser.parse sampleEnv "10.0.0.1-10.0.0.1".toList normalParser).2)
    (x := [(0xFFFF0A000001, 0xFFFF0A000001)]) (t := "10.0.0.1-10.0.0.1".toList) (by decide +kernel) (by decide +kernel)
  have := h sampleEnv sampleDb normalParser _ _ m m' normalParser_reads (by decide) (by decide) h1 h1'
    fun v => ⟨holding_map (h2.trans h2'.symm) v, holding_map (h2'.trans h2.symm) v⟩
  rw [h3, h3'] at this
  exact absurd (Res.ok.inj this) (by decide)

/-- The hypotheses of the theorems are met: what is made of a list with an empty range and ranges which touch, and of its text. -/
example : normalParser.config.sort &&& SORT_MERGE ≠ 0 ∧ normalParser.config.sort &&& SORT_NO_EMPTY ≠ 0
    ∧ resultText (Parser.parse sampleEnv "10.0.0.9,10.0.0.1-10.0.0.8,::5-::2,::7-,::1-::3,10.0.0.7".toList normalParser).2
      = some "::1-::3,::7,10.0.0.1-10.0.0.9".toList
    ∧ resultText (Parser.parse sampleEnv "::1-::3,::7,10.0.0.1-10.0.0.9".toList normalParser).2
      = some "::1-::3,::7,10.0.0.1-10.0.0.9".toList := by
  refine ⟨?_, ?_, ?_, ?_⟩ <;> decide +kernel

/-- Two lists with the same addresses, none of them alone. -/
example : resultBounds (Parser.parse sampleEnv "10.0.0.2,10.0.0.1".toList normalParser).2 = some [(0xFFFF0A000001, 0xFFFF0A000002)]
    ∧ resultBounds (Parser.parse sampleEnv "10.0.0.1-10.0.0.2".toList normalParser).2 = some [(0xFFFF0A000001, 0xFFFF0A000002)] := by
  refine ⟨?_, ?_⟩ <;> decide +kernel

end Verif
