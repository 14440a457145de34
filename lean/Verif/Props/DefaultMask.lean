import Verif.Props.IgnoredFlags
import Verif.Props.ParserMask

/-!
# C56: the default masks which are accepted and never used
-/

namespace Verif

/-- The parser as it is without a default mask for IPv6. -/
def withoutMask6 (p : Parser) : Parser := { p with config := { p.config with defaultMask6 := [] } }

theorem sameReading_mask6 {p q : Parser} (he : p.error = q.error) (hc : p.errorCount = q.errorCount)
    (h : { q.config with defaultMask6 := [] } = { p.config with defaultMask6 := [] }) (hp : ':' ∉ p.config.defaultMask6)
    (hq : ':' ∉ q.config.defaultMask6) : SameReading p q := by
  obtain ⟨c, e, n⟩ := p
  obtain ⟨d, e', n'⟩ := q
  cases c
  cases d
  simp only [Config.mk.injEq, true_and] at h
  obtain ⟨rfl, rfl, rfl, rfl, rfl, rfl, rfl⟩ := h
  exact sameReading_config he hc rfl rfl rfl ⟨⟨⟨rfl, rfl, rfl, rfl, rfl, rfl, rfl, rfl, rfl⟩, rfl⟩, rfl, rfl, rfl,
    by rw [Parser.usedMask6, Parser.usedMask6, if_neg hp, if_neg hq]⟩ rfl

/-- C56, the masks which are ignored: a default mask for IPv6 (within brackets, or a number above 32) which has no colon is accepted
and stored, and every text whatsoever is then read as without a default mask for IPv6: same outcome, same messages, same count. -/
theorem C56_ignored (env : ParseEnv) (p p' : Parser) (m : Str) (h6 : MaskForIpv6 env m) (hc : ':' ∉ m)
    (hempty : env.convert [] = none)
    (hset : Parser.setDefaultMask env m p = (p', .ok ())) :
    p'.config.defaultMask6 = (if Bracketed m then (m.drop 1).dropLast else m) ∧ SameReading p' (withoutMask6 p) := by
  have h0 : m ≠ [] := by
    rintro rfl
    rcases h6 with h | h | ⟨n, h1, h2⟩
    · cases h.1
    · cases h
    · rw [hempty] at h1
      cases h1
  have hin : ∀ s : Str, (∀ x ∈ s, x ∈ m) → ':' ∉ s := fun s hs hx => hc (hs _ hx)
  have key : ∀ s : Str, (∀ x ∈ s, x ∈ m) → p' = { p with config := { p.config with defaultMask6 := s } } →
      SameReading p' (withoutMask6 p) := by
    rintro s hs rfl
    exact sameReading_mask6 rfl rfl rfl (hin s hs) (by simp [withoutMask6])
  rw [Parser.setDefaultMask, PM.config_bind, if_neg h0] at hset
  by_cases hb : Bracketed m
  · rw [if_pos (by simp [hb.1, hb.2])] at hset
    rw [if_pos hb]
    have e : p' = { p with config := { p.config with defaultMask6 := (m.drop 1).dropLast } } := (congrArg Prod.fst hset).symm
    exact ⟨by rw [e], key _ (fun x hx => List.mem_of_mem_drop ((List.dropLast_sublist _).subset hx)) e⟩
  · rw [if_neg (by rw [Bool.and_eq_true]; exact fun h' => hb ⟨by simpa using h'.1, by simpa using h'.2⟩)] at hset
    rw [if_neg hb]
    obtain ⟨n, h1, h2⟩ : ∃ n, env.convert m = some n ∧ n > 32 := by
      rcases h6 with h | h | h
      · exact absurd h hb
      · exact absurd h hc
      · exact h
    split at hset
    · cases hset
    · rw [if_neg (by simpa using hc), h1] at hset
      dsimp only at hset
      split at hset
      · cases hset
      · have e : p' = { p with config := { p.config with defaultMask6 := m } } := (congrArg Prod.fst hset).symm
        exact ⟨by rw [e], key _ (fun x hx => hx) e⟩

/-- C56, in one statement: an accepted default mask for IPv6 is used (every address which is not written as an IPv4 address, alone
in a text, is read as if the mask had been written after it) or not at all (every text is read as without it), according to
whether it has a colon. -/
theorem C56_ipv6_exact (env : ParseEnv) (p p' : Parser) (m : Str) (h6 : MaskForIpv6 env m)
    (hempty : env.convert [] = none) (hset : Parser.setDefaultMask env m p = (p', .ok ())) :
    (':' ∈ m → (∀ x, m.getLast? = some x → Parser.isSpace x = false) → (∀ x ∈ m, separates p' x = false) →
      p'.config.flags .mask = true → ∀ a, HasAddress a → OneEntry p' a → ¬ WrittenAsIpv4 p' a →
        Parser.parse env a p' = Parser.parse env (a ++ '/' :: maskAsWritten m) p')
      ∧ (':' ∉ m → SameReading p' (withoutMask6 p)) :=
  ⟨fun hc hl hs hm a ha h1 hw => C56_default_mask_partial env p p' a m (by rintro rfl; cases hc) hl hset hm ha h1 hs (.inr ⟨hw, hc⟩),
    fun hc => (C56_ignored env p p' m h6 hc hempty hset).2⟩

/-- "[64]" and "64" are accepted, and stored as "64". -/
example : MaskForIpv6 sampleEnv "[64]".toList ∧ MaskForIpv6 sampleEnv "64".toList ∧ sampleEnv.convert [] = none
    ∧ (Parser.setDefaultMask sampleEnv "[64]".toList maskParser).2 = .ok ()
    ∧ (Parser.setDefaultMask sampleEnv "[64]".toList maskParser).1.config.defaultMask6 = "64".toList
    ∧ (Parser.setDefaultMask sampleEnv "64".toList maskParser).1.config.defaultMask6 = "64".toList :=
  ⟨.inl (by decide), .inr (.inr ⟨64, by decide +kernel, by decide⟩), by decide +kernel, by decide +kernel, by decide +kernel,
    by decide +kernel⟩

end Verif
