import Verif.Props.AddrState

/-! The protocol of an address set by its name (C18). -/

namespace Verif

/-- C18: the function which takes the name of a protocol (`found` is what the protocol database says about the name, `none` stands for a
null pointer) does what the function which takes a number does with the number of this protocol. A null pointer, a name which is not
known and the name of a protocol other than IP, TCP and UDP are refused, and the object is then unchanged. -/
theorem C18_by_name (a : Addr) (found : Option (Option Int)) :
    (∀ p, found = some (some p) → a.setProtocolStr found = a.setProtocol p)
      ∧ ((a.setProtocolStr found).2 = .ok () ↔ ∃ p, found = some (some p) ∧ (p = 0 ∨ p = 6 ∨ p = 17))
      ∧ ((a.setProtocolStr found).2 = .ok () → found = some (some (a.setProtocolStr found).1.protocol))
      ∧ ((a.setProtocolStr found).2 ≠ .ok () → a.setProtocolStr found = (a, .throw .invalidArgument)) := by
  match found with
  | none => exact ⟨fun p h => (nomatch h), ⟨fun h => (nomatch h), fun ⟨p, h, _⟩ => (nomatch h)⟩, fun h => (nomatch h), fun _ => rfl⟩
  | some none => exact ⟨fun p h => (nomatch h), ⟨fun h => (nomatch h), fun ⟨p, h, _⟩ => (nomatch h)⟩, fun h => (nomatch h), fun _ => rfl⟩
  | some (some p) =>
    have hs : a.setProtocolStr (some (some p)) = a.setProtocol p := rfl
    rw [hs]
    obtain ⟨h1, h2⟩ := C18_set_protocol_partial a p
    refine ⟨fun q h => by cases h; rfl, ?_⟩
    by_cases hp : p = 0 ∨ p = 6 ∨ p = 17
    · obtain ⟨a', g1, g2, _⟩ := h1 hp
      rw [g1]
      exact ⟨⟨fun _ => ⟨p, rfl, hp⟩, fun _ => rfl⟩, fun _ => by rw [g2], fun h => absurd rfl h⟩
    · rw [h2 hp]
      exact ⟨⟨fun h => (nomatch h), fun ⟨q, h, hq⟩ => by cases h; exact absurd hq hp⟩, fun h => (nomatch h), fun _ => rfl⟩

/-- "udp" is set, "icmp" (1) is refused. -/
example : (Addr.default.setProtocolStr (some (some 17))).1.protocol = 17
    ∧ Addr.default.setProtocolStr (some (some 1)) = (Addr.default, .throw .invalidArgument) := by
  refine ⟨?_, (C18_by_name Addr.default (some (some 1))).2.2.2 fun h => ?_⟩
  · have h := (C18_by_name Addr.default (some (some 17))).2.2.1 ((C18_by_name Addr.default (some (some 17))).2.1.2 ⟨17, rfl, by decide⟩)
    exact (Option.some.inj (Option.some.inj h)).symm
  · obtain ⟨p, h1, h2⟩ := (C18_by_name Addr.default (some (some 1))).2.1.1 h
    cases h1
    exact absurd h2 (by decide)

end Verif
