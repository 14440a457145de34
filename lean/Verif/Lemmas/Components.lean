import Mathlib.Data.List.Perm.Subperm

/-!
# Lists of separate intervals are determined by their numbers
-/

namespace Verif.Components

/-- The interval holds the number. -/
def Holds (v : Nat) (c : Nat × Nat) : Prop := c.1 ≤ v ∧ v ≤ c.2

/-- The intervals do not meet nor touch. -/
def Apart (a b : Nat × Nat) : Prop := ¬ (a.1 ≤ b.2 + 1 ∧ b.1 ≤ a.2 + 1)

theorem Apart.symm {a b : Nat × Nat} (h : Apart a b) : Apart b a := fun h1 => h ⟨h1.2, h1.1⟩

theorem apart_of {l : List (Nat × Nat)} (h : l.Pairwise Apart) : ∀ {a b : Nat × Nat}, a ∈ l → b ∈ l → a = b ∨ Apart a b := by
  induction h with
  | nil => exact fun ha => nomatch ha
  | cons hx _ ih =>
    intro a b ha hb
    rcases List.mem_cons.1 ha with ha | ha <;> rcases List.mem_cons.1 hb with hb | hb
    · exact .inl (ha.trans hb.symm)
    · exact .inr (ha ▸ hx b hb)
    · exact .inr (hb ▸ (hx a ha).symm)
    · exact ih ha hb

/-- What is right after an interval is not held. -/
theorem after_not {l : List (Nat × Nat)} (h : l.Pairwise Apart) (hn : ∀ c ∈ l, c.1 ≤ c.2) {c : Nat × Nat} (hc : c ∈ l) :
    ¬ ∃ d ∈ l, Holds (c.2 + 1) d := by
  rintro ⟨d, hd, h1, h2⟩
  have := hn c hc
  rcases apart_of h hc hd with rfl | ha
  · omega
  · exact ha ⟨by omega, by omega⟩

theorem before_not {l : List (Nat × Nat)} (h : l.Pairwise Apart) (hn : ∀ c ∈ l, c.1 ≤ c.2) {c : Nat × Nat} (hc : c ∈ l) {v : Nat} (hv : v + 1 = c.1) :
    ¬ ∃ d ∈ l, Holds v d := by
  rintro ⟨d, hd, h1, h2⟩
  have := hn c hc
  rcases apart_of h hc hd with rfl | ha
  · omega
  · exact ha ⟨by omega, by omega⟩

/-- Intervals of one list are in the other. -/
theorem mem_of {l m : List (Nat × Nat)} (hl : l.Pairwise Apart) (hm : m.Pairwise Apart) (nl : ∀ c ∈ l, c.1 ≤ c.2) (nm : ∀ c ∈ m, c.1 ≤ c.2)
    (h : ∀ v, (∃ c ∈ l, Holds v c) ↔ ∃ c ∈ m, Holds v c) {c : Nat × Nat} (hc : c ∈ l) : c ∈ m := by
  have hcn := nl c hc
  obtain ⟨d, hd, h1, h2⟩ := (h c.1).1 ⟨c, hc, by unfold Holds; omega⟩
  have e1 : d.1 = c.1 := by
    apply Nat.le_antisymm h1
    refine Nat.le_of_not_lt fun hlt => ?_
    have := before_not hl nl hc (v := c.1 - 1) (by omega)
    exact this ((h _).2 ⟨d, hd, by unfold Holds; omega⟩)
  have e2 : d.2 = c.2 := by
    rcases Nat.lt_trichotomy d.2 c.2 with hlt | he | hlt
    · exact absurd ((h _).1 ⟨c, hc, by unfold Holds; omega⟩) (after_not hm nm hd)
    · exact he
    · exact absurd ((h _).2 ⟨d, hd, by unfold Holds; omega⟩) (after_not hl nl hc)
  rw [← show d = c from Prod.ext e1 e2]
  exact hd

/-- Sorted by a strict order, lists with the same elements are the same. -/
theorem eq_of_sorted {α : Type} {R : α → α → Prop} (asymm : ∀ a b, R a b → ¬ R b a) : ∀ {l m : List α}, l.Pairwise R → m.Pairwise R →
    (∀ x, x ∈ l ↔ x ∈ m) → l = m
  | [], [], _, _, _ => rfl
  | [], b :: m, _, _, h => nomatch (h b).2 List.mem_cons_self
  | a :: l, [], _, _, h => nomatch (h a).1 List.mem_cons_self
  | a :: l, b :: m, hl, hm, h => by
    obtain ⟨l1, l2⟩ := List.pairwise_cons.1 hl
    obtain ⟨m1, m2⟩ := List.pairwise_cons.1 hm
    obtain rfl : a = b := by
      rcases List.mem_cons.1 ((h a).1 List.mem_cons_self) with h1 | h1
      · exact h1
      · rcases List.mem_cons.1 ((h b).2 List.mem_cons_self) with h2 | h2
        · exact h2.symm
        · exact absurd (l1 b h2) (asymm _ _ (m1 a h1))
    congr 1
    refine eq_of_sorted asymm l2 m2 fun x => ⟨fun hx => ?_, fun hx => ?_⟩
    · rcases List.mem_cons.1 ((h x).1 (List.mem_cons_of_mem _ hx)) with rfl | h1
      · exact absurd (l1 x hx) (asymm _ _ (l1 x hx))
      · exact h1
    · rcases List.mem_cons.1 ((h x).2 (List.mem_cons_of_mem _ hx)) with rfl | h1
      · exact absurd (m1 x hx) (asymm _ _ (m1 x hx))
      · exact h1

theorem nodup_apart {l : List (Nat × Nat)} (h : l.Pairwise Apart) (hn : ∀ c ∈ l, c.1 ≤ c.2) : l.Nodup := by
  induction h with
  | nil => exact List.nodup_nil
  | @cons a l hx _ ih =>
    refine List.nodup_cons.2 ⟨fun ha => ?_, ih fun c hc => hn c (List.mem_cons_of_mem _ hc)⟩
    have := hn a List.mem_cons_self
    exact hx a ha ⟨by omega, by omega⟩

/-- No list of intervals which holds the same numbers is shorter. -/
theorem fewest {l m : List (Nat × Nat)} (hl : l.Pairwise Apart) (nl : ∀ c ∈ l, c.1 ≤ c.2)
    (h : ∀ v, (∃ c ∈ l, Holds v c) ↔ ∃ c ∈ m, Holds v c) : l.length ≤ m.length := by
  have hex : ∀ c, ∃ d, c ∈ l → d ∈ m ∧ Holds c.1 d := by
    intro c
    by_cases hc : c ∈ l
    · have := nl c hc
      obtain ⟨d, hd, h1⟩ := (h c.1).1 ⟨c, hc, by unfold Holds; omega⟩
      exact ⟨d, fun _ => ⟨hd, h1⟩⟩
    · exact ⟨(0, 0), fun h1 => absurd h1 hc⟩
  let f := fun c => Classical.choose (hex c)
  have hf : ∀ c ∈ l, f c ∈ m ∧ Holds c.1 (f c) := fun c hc => Classical.choose_spec (hex c) hc
  have inj : ∀ c ∈ l, ∀ d ∈ l, f c = f d → c.1 < d.1 → False := by
    intro c hc d hd he hlt
    have h1 := (hf c hc).2
    have h2 := (hf d hd).2
    rw [← he] at h2
    have hcn := nl c hc
    have hdn := nl d hd
    have ha : Apart c d := (apart_of hl hc hd).resolve_left (fun h => by rw [h] at hlt; omega)
    have : c.2 + 1 < d.1 := by
      refine Nat.lt_of_not_le fun h3 => ha ⟨by omega, h3⟩
    unfold Holds at h1 h2
    exact after_not hl nl hc ((h _).2 ⟨f c, (hf c hc).1, by unfold Holds; omega⟩)
  have hnd : (l.map f).Nodup := by
    clear h
    have key : ∀ k : List (Nat × Nat), (∀ c ∈ k, c ∈ l) → k.Pairwise Apart → (k.map f).Nodup := by
      intro k hk hp
      induction hp with
      | nil => exact List.nodup_nil
      | @cons a k hx _ ih =>
        refine List.nodup_cons.2 ⟨fun ha => ?_, ih fun c hc => hk c (List.mem_cons_of_mem _ hc)⟩
        obtain ⟨b, hb, he⟩ := List.mem_map.1 ha
        have ha' := hk a List.mem_cons_self
        have hb' := hk b (List.mem_cons_of_mem _ hb)
        rcases Nat.lt_trichotomy a.1 b.1 with h1 | h1 | h1
        · exact inj a ha' b hb' he.symm h1
        · have := nl a ha'
          have := nl b hb'
          exact hx b hb ⟨by omega, by omega⟩
        · exact inj b hb' a ha' he h1
    exact key l (fun c hc => hc) hl
  have := (List.subperm_of_subset hnd (l₂ := m) fun x hx => by
    obtain ⟨c, hc, rfl⟩ := List.mem_map.1 hx
    exact (hf c hc).1).length_le
  rwa [List.length_map] at this

end Verif.Components
