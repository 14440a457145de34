import Verif.Lemmas.ParserPost
import Verif.Lemmas.ParserMask

/-!
# The ranges of a parser without ranges and without masks written as addresses

Each one is a single address, and its mask is a number of bits.
-/

namespace Verif

namespace Parser

open Spec

/-- A single address with a mask which is a number of bits. -/
def Plain (r : Range) : Prop := r.hasFrom = true ∧ r.hasTo = false ∧ ∃ k, k ≤ 128 ∧ ip r.lo.mask = prefixMask k

/-- The mask of an address which was just read. -/
def FullMask (a : Addr) : Prop := a.mask = Vector.replicate 16 255

theorem fullMask_prefix {a : Addr} (h : FullMask a) : ∃ k, k ≤ 128 ∧ ip a.mask = prefixMask k :=
  ⟨128, by omega, by rw [h]; decide +kernel⟩

theorem makeRange_plain {a : Res Addr} {hostname : Str} {protocol : Int} {d : Bool} {r : Range}
    (ha : ∀ a', a = .ok a' → FullMask a') (h : makeRange a hostname protocol d = .ok r) : Plain r := by
  obtain ⟨h1, h2, _⟩ := makeRange_ok h
  refine ⟨h1, h2, fullMask_prefix ?_⟩
  rw [makeRange] at h
  cases a with
  | throw e => cases h
  | ub w => cases h
  | ok a =>
    have hm := ha a rfl
    simp only [Res.bind_ok] at h
    have h1 : onLocal (Addr.setHostname hostname) a = .ok { a with hostname := hostname } := rfl
    rw [h1] at h
    simp only [Res.bind_ok] at h
    have hfin : ∀ b : Addr, FullMask b →
        (onLocal (Addr.setPortDefined d) b >>= fun a => (Pure.pure (Range.default.setFrom a) : Res Range)) = .ok r →
        FullMask r.lo := by
      intro b hb he
      have h2 : onLocal (Addr.setPortDefined d) b = .ok { b with portDefined := d } := rfl
      rw [h2] at he
      cases he
      exact hb
    by_cases hp : protocol ≠ -1
    · rw [if_pos hp] at h
      cases h2 : onLocal (Addr.setProtocol protocol) { a with hostname := hostname } with
      | throw e => rw [h2] at h; cases h
      | ub w => rw [h2] at h; cases h
      | ok b =>
        rw [h2] at h
        refine hfin b ?_ h
        simp only [onLocal, Addr.setProtocol] at h2
        split at h2
        · rename_i a' ha'
          cases h2
          revert ha'
          repeat' split
          all_goals intro ha'; simp at ha'
          · rw [← ha']; exact hm
          · rw [← ha']; exact hm
        · cases h2
        · cases h2
    · rw [if_neg hp] at h
      exact hfin { a with hostname := hostname } hm h

theorem ofIn_full {sa : SockaddrIn} {a : Addr} (h : Addr.ofIn sa = .ok a) : FullMask a := by
  unfold Addr.ofIn Addr.setIpv4 at h
  by_cases hf : sa.family ≠ AF_INET
  · rw [if_pos hf] at h; cases h
  · rw [if_neg hf] at h; cases h; rfl

theorem ofIn6_full {sa : SockaddrIn6} {a : Addr} (h : Addr.ofIn6 sa = .ok a) : FullMask a := by
  unfold Addr.ofIn6 Addr.setIpv6 at h
  by_cases hf : sa.family ≠ AF_INET6
  · rw [if_pos hf] at h; cases h
  · rw [if_neg hf] at h; cases h; rfl

section
variable {c : Config} {env : ParseEnv}

theorem plain_addrinfoLoop (t : Str) (d : Bool) (l : List AddrInfo) (first : Bool) (result : List Range) (hr : All Plain result) :
    Post c (addrinfoLoop t d l first result) (All Plain) := by
  induction l generalizing first result with
  | nil => exact post_pure c hr
  | cons x l ih =>
    cases x with
    | inet len protocol sa =>
      rw [addrinfoLoop]
      split
      · exact post_bind (post_emit c _) fun _ _ => ih _ _ hr
      · exact post_bind (R := Plain) (post_lift c fun r h => makeRange_plain (fun _ => ofIn_full) h)
          fun r h => ih _ _ (all_append hr (all_single h))
    | inet6 len protocol sa =>
      rw [addrinfoLoop]
      split
      · exact post_bind (post_emit c _) fun _ _ => ih _ _ hr
      · exact post_bind (R := Plain) (post_lift c fun r h => makeRange_plain (fun _ => ofIn6_full) h)
          fun r h => ih _ _ (all_append hr (all_single h))
    | other family =>
      rw [addrinfoLoop]
      split
      · exact post_bind (post_emit c _) fun _ _ => ih _ _ hr
      · exact ih _ _ hr

theorem plain_numericAddress (t : Str) (port : Int) (d : Bool) : Post c (numericAddress t port d []) (All Plain) := by
  rw [numericAddress]
  refine post_config ?_
  dsimp only
  split
  · exact post_bind (R := Plain) (post_lift c fun r h => makeRange_plain (fun _ => ofIn_full) h)
      fun r h => post_pure c (all_append (all_nil _) (all_single h))
  · split
    · exact post_bind (R := Plain) (post_lift c fun r h => makeRange_plain (fun _ => ofIn6_full) h)
        fun r h => post_pure c (all_append (all_nil _) (all_single h))
    · exact post_emit_then _

theorem plain_lookupAddress (address port : Str) (d : Bool) : Post c (lookupAddress env address port d []) (All Plain) := by
  rw [lookupAddress]
  refine post_config ?_
  split
  · exact post_emit_then _
  · exact plain_addrinfoLoop _ _ _ _ _ (all_nil _)

theorem plain_noLookupAddress (address port : Str) (d : Bool) : Post c (noLookupAddress env address port d []) (All Plain) := by
  rw [noLookupAddress]
  refine post_getAllow (post_getAllow ?_)
  split
  · split
    · exact post_emit_then _
    · split
      · exact post_emit_then _
      · split
        · exact post_emit_then _
        · exact plain_numericAddress _ _ _
  · exact plain_numericAddress _ _ _

theorem plain_parseAddressPort (address port : Str) (v6 : Bool) : Post c (parseAddressPort env address port [] v6) (All Plain) := by
  rw [parseAddressPort]
  refine post_config ?_
  dsimp only
  split
  · exact post_emit_then _
  split
  · exact post_emit_then _
  split
  · exact plain_lookupAddress _ _ _
  · exact plain_noLookupAddress _ _ _

variable (hrange : c.flags .addressRange = false)

include hrange

theorem plain_parseAddressRangePort (address port : Str) (v6 : Bool) :
    Post c (parseAddressRangePort env address port [] v6) (All Plain) := by
  rw [parseAddressRangePort]
  refine post_config ?_
  rw [hrange]
  exact plain_parseAddressPort _ _ _

theorem plain_parseAddress4 (s : Str) : Post c (parseAddress4 env s []) (All Plain) := by
  rw [parseAddress4]
  refine post_config ?_
  split
  · exact plain_parseAddressRangePort hrange _ _ _
  · split
    · exact plain_parseAddressRangePort hrange _ _ _
    · exact post_emit_then _

theorem plain_parseAddress6 (s : Str) (n : Nat) : Post c (parseAddress6 env s n []) (All Plain) := by
  rw [parseAddress6]
  refine post_config ?_
  split
  · split
    · exact post_emit_then _
    · exact plain_parseAddressRangePort hrange _ _ _
    · split
      · exact post_emit_then _
      · split
        · exact post_emit_then _
        · exact plain_parseAddressRangePort hrange _ _ _
  · split
    · split
      · exact post_throw c _ _
      · exact plain_parseAddressRangePort hrange _ _ _
    · exact plain_parseAddressRangePort hrange _ _ _

theorem plain_parseAddress (s mask : Str) : Post c (parseAddress env s mask []) (fun x => All Plain x.2) := by
  have h4 : Post c (parseAddress4 env s [] >>= fun l => (Pure.pure (true, l) : PM (Bool × List Range)))
      (fun x => All Plain x.2) :=
    post_bind (plain_parseAddress4 hrange _) fun l hl => post_pure c hl
  have h6 : Post c (parseAddress6 env s (s.count ':') [] >>= fun l => (Pure.pure (false, l) : PM (Bool × List Range)))
        (fun x => All Plain x.2) :=
    post_bind (plain_parseAddress6 hrange _ _) fun l hl => post_pure c hl
  rw [parseAddress]
  refine post_config ?_
  dsimp only
  repeat' (first | exact h4 | exact h6 | split)

variable (hmask : c.flags .addressMask = false)

include hmask

omit hrange in
theorem plain_parseMask (mask : Str) (a : Addr) (v4 : Bool) (h : ∃ k, k ≤ 128 ∧ ip a.mask = prefixMask k) :
    Post c (parseMask env mask a v4) (fun b => ∃ k, k ≤ 128 ∧ ip b.mask = prefixMask k) := by
  have hs : Post c (Pure.pure a : PM Addr) (fun b => ∃ k, k ≤ 128 ∧ ip b.mask = prefixMask k) := post_pure c h
  rw [parseMask]
  split
  · exact hs
  · split
    · exact post_bind (post_emit c _) fun _ _ => hs
    · rename_i n _
      split
      · exact post_bind (post_emit c _) fun _ _ => hs
      · split
        · exact post_bind (post_emit c _) fun _ _ => hs
        · rename_i h4 h6
          refine post_bind (R := fun bits => ∃ k, k ≤ 128 ∧ ip bits = prefixMask k) (post_lift c fun bits hb => ?_)
            fun bits hb => post_lift c fun b hb' => by cases hb'; exact hb
          have key : ∀ k, k ≤ 128 → clearLow 16 (128 - k) (Vector.replicate 16 255) = .ok bits →
              ∃ k, k ≤ 128 ∧ ip bits = prefixMask k := fun k hk hb => by
            rw [clearLow_prefix k hk] at hb
            cases hb
            exact ⟨k, hk, ip_prefixBytes k hk⟩
          cases v4 with
          | true =>
            have : n ≤ 32 := by simpa using h4
            refine key (96 + n) (by omega) ?_
            rw [show 128 - (96 + n) = 32 - n by omega]
            exact hb
          | false =>
            have : n ≤ 128 := by simpa using h6
            exact key n this hb
    · rw [addressMask]
      refine post_bind (R := fun o => o = none) ?_ fun o ho => ?_
      · refine post_config ?_
        rw [hmask]
        exact post_bind (post_emit c _) fun _ _ => post_pure c rfl
      · subst ho
        exact hs

omit hrange in
theorem plain_maskLoop (mask : Str) (v4 : Bool) (l : List Range) (hl : All Plain l) :
    Post c (maskLoop env mask v4 l) (All Plain) := by
  induction l with
  | nil => exact post_pure c (all_nil _)
  | cons x l ih =>
    rw [maskLoop]
    have hx := hl x (List.mem_cons_self ..)
    refine post_config (post_bind (plain_parseMask hmask _ _ _ hx.2.2) fun a ha => ?_)
    refine post_bind (ih fun r hr => hl r (List.mem_cons_of_mem _ hr)) fun l' hl' => post_pure c ?_
    refine fun r hr => ?_
    rcases List.mem_cons.1 hr with hr | hr
    · rw [hr]
      exact ⟨hx.1, hx.2.1, ha⟩
    · exact hl' r hr

theorem plain_parseCidr (s : Str) : Post c (parseCidr env s []) (All Plain) := by
  rw [parseCidr]
  refine post_config ?_
  dsimp only
  split
  · refine post_errorCountNow fun n => ?_
    refine post_bind (plain_parseAddress hrange _ _) fun x hx => ?_
    refine post_bind (plain_maskLoop hmask _ _ _ hx) fun l hl => ?_
    refine post_errorCountNow fun m => ?_
    split
    · exact post_pure c (all_append (all_nil _) hl)
    · exact post_pure c (all_nil _)
  · exact post_bind (plain_parseAddress hrange _ _) fun x hx => post_pure c hx

theorem plain_seqEntries (es : List Str) : Post c (seqEntries env es) (All Plain) := by
  induction es with
  | nil => exact post_pure c (all_nil _)
  | cons e es ih =>
    rw [seqEntries]
    refine post_bind (plain_parseCidr hrange hmask e) fun l hl => ?_
    exact post_bind ih fun l' hl' => post_pure c (all_append hl hl')

theorem plain_parseUnsorted (inp : Str) : Post c (parseUnsorted env inp) (All Plain) := by
  rw [parseUnsorted]
  refine post_config ?_
  split
  · rw [parseSingle]
    refine post_config ?_
    dsimp only
    split
    · exact post_bind (R := fun _ => True) (post_lift c fun _ _ => trivial) fun e _ => plain_parseCidr hrange hmask _
    · exact plain_parseCidr hrange hmask _
  · intro p hp
    rw [parseList_eq, hp]
    exact post_bind (plain_seqEntries hrange hmask _) (fun l hl => post_pure c (all_append (all_nil _) hl)) p hp

end

end Parser

end Verif
