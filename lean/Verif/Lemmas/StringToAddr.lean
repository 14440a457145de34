import Verif.SpecStringToAddr
import Verif.Lemmas.ParserSafe

/-!
# Lemmas: a text which is one entry, with lookups
-/

namespace Verif.Parser

open Spec

/-- The list is empty or made of the answers to one question. -/
def Answered (env : ParseEnv) (c : Config) (l : List Range) : Prop :=
  l = [] ∨ ∃ t service answers, env.getaddrinfo (cstr t) service false (hintProtocol c.protocol) = .list answers
    ∧ Each (Stands t) (answers.filter usable) l

section
variable {env : ParseEnv} {c : Config}

theorem answered_nil : Answered env c [] := .inl rfl

theorem safe_emit_answered (msg : Str) :
    Safe c (emitError msg >>= fun _ => (Pure.pure [] : PM (List Range))) (Answered env c) :=
  safe_bind (safe_emit msg) fun _ _ => safe_pure answered_nil

theorem onLocal_setProtocol_keeps {n : Int} (h : Settable n) (a : Addr) :
    ∃ b, onLocal (Addr.setProtocol n) a = .ok b ∧ b.protocol = n ∧ b.address = a.address ∧ b.hostname = a.hostname
      ∧ b.mask = a.mask := by
  by_cases e : n = a.protocol
  · exact ⟨a, by rw [onLocal, Addr.setProtocol, if_pos (show n = IPPROTO_IP ∨ _ from h), if_neg (fun h => h e)], e.symm, rfl, rfl, rfl⟩
  · exact ⟨Addr.addressChanged { a with protocolDefined := true, protocol := n },
      by rw [onLocal, Addr.setProtocol, if_pos (show n = IPPROTO_IP ∨ _ from h), if_pos e], rfl, rfl, rfl, rfl⟩

theorem makeRange_stands {a : Addr} {hostname : Str} {protocol : Int} {d : Bool} (ha : a.protocol = 6)
    (hp : KnownProtocol protocol) : ∃ r, makeRange (.ok a) hostname protocol d = .ok r ∧ r.hasFrom = true ∧ r.hasTo = false
      ∧ r.lo.address = a.address ∧ r.lo.protocol = (if protocol = -1 then 6 else protocol) ∧ r.lo.hostname = hostname
      ∧ r.lo.mask = a.mask ∧ r.lo.portDefined = d := by
  by_cases e : protocol = -1
  · refine ⟨Range.default.setFrom { a with hostname := hostname, portDefined := d }, ?_, rfl, rfl, rfl, ?_, rfl, rfl, rfl⟩
    · simp only [makeRange, onLocal, Addr.setHostname, Addr.setPortDefined, Res.bind_ok, if_neg (fun h : protocol ≠ -1 => h e)]
      rfl
    · rw [if_pos e]
      exact ha
  · obtain ⟨b, hb, hbp, hba, hbh, hbm⟩ := onLocal_setProtocol_keeps (settable_of_known hp e) { a with hostname := hostname }
    refine ⟨Range.default.setFrom { b with portDefined := d }, ?_, rfl, rfl, hba, ?_, hbh, hbm, rfl⟩
    · simp only [makeRange, onLocal, Addr.setHostname, Addr.setPortDefined, Res.bind_ok, if_pos e] at hb ⊢
      rw [hb]
      rfl
    · rw [if_neg e]
      exact hbp

theorem stands_inet {t : Str} {len : Nat} {protocol : Int} {sa : SockaddrIn} {d : Bool} (hf : sa.family = AF_INET)
    (hp : KnownProtocol protocol) : ∃ r, makeRange (Addr.ofIn sa) t protocol d = .ok r ∧ Stands t (.inet len protocol sa) r
      ∧ r.lo.mask = Vector.replicate 16 0xFF ∧ r.lo.portDefined = d := by
  rw [Addr.ofIn, Addr.setIpv4, if_neg (fun h' => h' hf)]
  obtain ⟨r, h1, h2, h3, h4, h5, h6, h7, h8⟩ := makeRange_stands (hostname := t) (protocol := protocol) (d := d)
    (a := Addr.addressChanged { Addr.default with address := _ }) rfl hp
  exact ⟨r, h1, ⟨h2, h3, h4, h5, h6⟩, h7, h8⟩

theorem stands_inet6 {t : Str} {len : Nat} {protocol : Int} {sa : SockaddrIn6} {d : Bool} (hf : sa.family = AF_INET6)
    (hp : KnownProtocol protocol) : ∃ r, makeRange (Addr.ofIn6 sa) t protocol d = .ok r ∧ Stands t (.inet6 len protocol sa) r
      ∧ r.lo.mask = Vector.replicate 16 0xFF ∧ r.lo.portDefined = d := by
  rw [Addr.ofIn6, Addr.setIpv6, if_neg (fun h' => h' hf)]
  obtain ⟨r, h1, h2, h3, h4, h5, h6, h7, h8⟩ := makeRange_stands (hostname := t) (protocol := protocol) (d := d)
    (a := Addr.addressChanged { Addr.default with address := _ }) rfl hp
  exact ⟨r, h1, ⟨h2, h3, h4, h5, h6⟩, h7, h8⟩

theorem each_snoc {α β : Type} {R : α → β → Prop} {l : List α} {l' : List β} {a : α} {b : β} (h : Each R l l')
    (hab : R a b) : Each R (l ++ [a]) (l' ++ [b]) := by
  induction h with
  | nil => exact .cons hab .nil
  | cons h _ ih => exact .cons h ih

theorem safe_loop_answered (t : Str) (d : Bool) (l : List AddrInfo) (hl : ∀ x ∈ l, SafeAnswer x) (first : Bool)
    (done : List AddrInfo) (result : List Range) (hr : Each (Stands t) (done.filter usable) result) :
    Safe c (addrinfoLoop t d l first result) fun l' => Each (Stands t) ((done ++ l).filter usable) l' := by
  induction l generalizing first done result with
  | nil => rw [List.append_nil]; exact safe_pure hr
  | cons x l ih =>
    have ih' := fun f r (h : Each (Stands t) ((done ++ [x]).filter usable) r) =>
      ih (fun y hy => hl y (List.mem_cons_of_mem _ hy)) f (done ++ [x]) r h
    rw [List.append_assoc] at ih'
    have hx := hl x List.mem_cons_self
    have skip : usable x = false → Each (Stands t) ((done ++ [x]).filter usable) result := fun h => by
      rw [List.filter_append, List.filter_cons_of_neg (by rw [h]; exact Bool.false_ne_true), List.filter_nil, List.append_nil]
      exact hr
    have add : usable x = true → ∀ r, Stands t x r → Each (Stands t) ((done ++ [x]).filter usable) (result ++ [r]) :=
      fun h r hs => by
        rw [List.filter_append, List.filter_cons_of_pos h, List.filter_nil]
        exact each_snoc hr hs
    cases x with
    | inet len protocol sa =>
      rw [addrinfoLoop]
      split
      · rename_i hlen
        exact safe_bind (safe_emit _) fun _ _ => ih' _ _ (skip (beq_eq_false_iff_ne.2 hlen))
      · rename_i hlen
        have hlen := Decidable.not_not.1 hlen
        obtain ⟨hf, hp⟩ := hx hlen
        exact safe_bind (safe_lift (stands_inet hf hp)) fun r h => ih' _ _ (add (beq_iff_eq.2 hlen) r h.1)
    | inet6 len protocol sa =>
      rw [addrinfoLoop]
      split
      · rename_i hlen
        exact safe_bind (safe_emit _) fun _ _ => ih' _ _ (skip (beq_eq_false_iff_ne.2 hlen))
      · rename_i hlen
        have hlen := Decidable.not_not.1 hlen
        obtain ⟨hf, hp⟩ := hx hlen
        exact safe_bind (safe_lift (stands_inet6 hf hp)) fun r h => ih' _ _ (add (beq_iff_eq.2 hlen) r h.1)
    | other family =>
      rw [addrinfoLoop]
      split
      · exact safe_bind (safe_emit _) fun _ _ => ih' _ _ (skip rfl)
      · exact ih' _ _ (skip rfl)

/-- The protocol of an answer. -/
def TaggedKnown : AddrInfo → Prop
  | .inet _ n _ => KnownProtocol n
  | .inet6 _ n _ => KnownProtocol n
  | .other _ => True

theorem loop_complete (t : Str) (d : Bool) (l : List AddrInfo) (hl : ∀ x ∈ l, CompleteAnswer x ∧ TaggedKnown x) (first : Bool)
    (result : List Range) (p : Parser) :
    ∃ l', addrinfoLoop t d l first result p = (p, .ok (result ++ l'))
      ∧ Each (fun x r => Stands t x r ∧ r.lo.mask = Vector.replicate 16 0xFF ∧ r.lo.portDefined = d) l l' := by
  induction l generalizing result with
  | nil => exact ⟨[], by rw [List.append_nil]; rfl, .nil⟩
  | cons x l ih =>
    obtain ⟨hx, hk⟩ := hl x List.mem_cons_self
    have ih' := fun r => ih (fun y hy => hl y (List.mem_cons_of_mem _ hy)) (result ++ [r])
    cases x with
    | inet len protocol sa =>
      obtain ⟨r, h1, h2⟩ := stands_inet (t := t) (len := len) (d := d) hx.2 hk
      obtain ⟨l', h3, h4⟩ := ih' r
      refine ⟨r :: l', ?_, .cons h2 h4⟩
      rw [addrinfoLoop, if_neg (fun h => h hx.1), h1, PM.lift_ok_bind, h3, List.append_assoc]
      rfl
    | inet6 len protocol sa =>
      obtain ⟨r, h1, h2⟩ := stands_inet6 (t := t) (len := len) (d := d) hx.2 hk
      obtain ⟨l', h3, h4⟩ := ih' r
      refine ⟨r :: l', ?_, .cons h2 h4⟩
      rw [addrinfoLoop, if_neg (fun h => h hx.1), h1, PM.lift_ok_bind, h3, List.append_assoc]
      rfl
    | other family => exact hx.elim

variable (henv : SafeAnswers env) (hlook : c.flags .addressLookup = true)
include henv hlook

theorem answered_parseAddressPort (address port : Str) (v6 : Bool) :
    Safe c (parseAddressPort env address port [] v6) (Answered env c) := by
  rw [parseAddressPort]
  refine safe_bind safe_config fun c' hc => ?_
  rw [hc]
  dsimp only
  split
  · exact safe_emit_answered _
  split
  · exact safe_emit_answered _
  generalize (if address = [] then
          if v6 = true then (if c.defaultAddress6 = [] then "::".toList else c.defaultAddress6)
          else (if c.defaultAddress4 = [] then "0.0.0.0".toList else c.defaultAddress4)
        else address) = t
  generalize (if (!decide (port ≠ []) && decide (c.defaultPort ≠ -1)) = true then intStr c.defaultPort else port) = q
  rw [lookupAddress]
  refine safe_bind safe_config fun c' hc => ?_
  rw [hc]
  split
  · exact safe_emit_answered _
  · rename_i l hl
    refine safe_mono (safe_loop_answered t _ l (henv _ _ _ _ (hint_cases _) hl) _ [] [] .nil) fun l' h => .inr ⟨t, _, l, hl, ?_⟩
    rw [List.nil_append] at h
    exact h

variable (hrange : c.flags .addressRange = false)
include hrange

theorem answered_parseAddressRangePort (addresses port : Str) (v6 : Bool) :
    Safe c (parseAddressRangePort env addresses port [] v6) (Answered env c) := by
  rw [parseAddressRangePort]
  refine safe_bind safe_config fun c' hc => ?_
  rw [hc, hrange, if_neg Bool.false_ne_true]
  exact answered_parseAddressPort henv hlook _ _ _

theorem answered_parseAddress4 (inp : Str) : Safe c (parseAddress4 env inp []) (Answered env c) := by
  rw [parseAddress4]
  refine safe_bind safe_config fun c' hc => ?_
  rw [hc]
  split
  · exact answered_parseAddressRangePort henv hlook hrange _ _ _
  · split
    · exact answered_parseAddressRangePort henv hlook hrange _ _ _
    · exact safe_emit_answered _

theorem answered_parseAddress6 (inp : Str) : Safe c (parseAddress6 env inp (inp.count ':') []) (Answered env c) := by
  rw [parseAddress6]
  refine safe_bind safe_config fun c' hc => ?_
  rw [hc]
  split
  · split
    · exact safe_emit_answered _
    · exact answered_parseAddressRangePort henv hlook hrange _ _ _
    · split
      · exact safe_emit_answered _
      · split
        · exact safe_emit_answered _
        · exact answered_parseAddressRangePort henv hlook hrange _ _ _
  · split
    · rename_i h
      split
      · rename_i hn
        exact absurd hn (splitFirst_of_count h)
      · exact answered_parseAddressRangePort henv hlook hrange _ _ _
    · exact answered_parseAddressRangePort henv hlook hrange _ _ _

theorem answered_parseAddress (inp mask : Str) : Safe c (parseAddress env inp mask []) fun x => Answered env c x.2 := by
  rw [parseAddress]
  refine safe_bind safe_config fun c' hc => ?_
  rw [hc]
  have h4 : Safe c (do return (true, ← parseAddress4 env inp []) : PM (Bool × List Range)) fun x => Answered env c x.2 :=
    safe_bind (answered_parseAddress4 henv hlook hrange inp) fun _ h => safe_pure h
  have h6 : Safe c (do return (false, ← parseAddress6 env inp (inp.count ':') []) : PM (Bool × List Range)) fun x => Answered env c x.2 :=
    safe_bind (answered_parseAddress6 henv hlook hrange inp) fun _ h => safe_pure h
  dsimp only
  repeat' split
  all_goals first | exact h4 | exact h6

omit henv hlook hrange

/-- What a mask leaves as it is. -/
def SameButMask (a b : Addr) : Prop := b.address = a.address ∧ b.protocol = a.protocol ∧ b.hostname = a.hostname

variable (hmask : c.flags .addressMask = false)
include hmask

theorem answered_parseMask (mask : Str) (a : Addr) (v4 : Bool) : Safe c (parseMask env mask a v4) (SameButMask a) := by
  have hemit : ∀ msg, Safe c (emitError msg >>= fun _ => (Pure.pure a : PM Addr)) (SameButMask a) :=
    fun msg => safe_bind (safe_emit msg) fun _ _ => safe_pure ⟨rfl, rfl, rfl⟩
  rw [parseMask]
  split
  · exact safe_pure ⟨rfl, rfl, rfl⟩
  split
  · exact hemit _
  · split
    · exact hemit _
    · split
      · exact hemit _
      · rename_i n _ _ _
        refine safe_bind (R := fun _ => True) (safe_lift ?_) fun _ _ => safe_lift ⟨_, rfl, rfl, rfl, rfl⟩
        obtain ⟨b, hb⟩ := clearLow_ok 15 (if v4 = true then 32 - n else 128 - n) (by split <;> omega) (Vector.replicate 16 255)
        exact ⟨b, hb, trivial⟩
  · refine safe_bind (safe_addressMask (fun h => by rw [hmask] at h; cases h) mask a v4) fun o _ => ?_
    split
    · exact safe_pure ⟨rfl, rfl, rfl⟩
    · exact safe_lift ⟨_, rfl, rfl, rfl, rfl⟩

theorem answered_maskLoop (t mask : Str) (v4 : Bool) (xs : List AddrInfo) (l : List Range) (hl : Each (Stands t) xs l) :
    Safe c (maskLoop env mask v4 l) fun l' => Each (Stands t) xs l' := by
  induction hl with
  | nil => exact safe_pure .nil
  | cons h _ ih =>
    rw [maskLoop]
    refine safe_bind safe_config fun _ _ => safe_bind (answered_parseMask hmask _ _ _) fun a ha => safe_bind ih fun _ h' => ?_
    refine safe_pure (.cons ⟨h.hasFrom, h.hasTo, ?_, ?_, ?_⟩ h')
    · have := h.holds
      rw [Addr.getIpv6] at this ⊢
      exact ha.1 ▸ this
    · exact ha.2.1.trans h.protocol
    · exact ha.2.2.trans h.hostname

include henv hlook hrange

theorem answered_parseCidr (inp : Str) : Safe c (parseCidr env inp []) (Answered env c) := by
  rw [parseCidr]
  refine safe_bind safe_config fun c' hc => ?_
  rw [hc]
  dsimp only
  split
  · refine safe_bind safe_errorCountNow fun _ _ => safe_bind (answered_parseAddress henv hlook hrange _ _) fun x hx => ?_
    refine safe_bind (R := Answered env c) ?_ fun l hl => safe_bind safe_errorCountNow fun _ _ => ?_
    · rcases hx with hx | ⟨t, s, answers, h1, h2⟩
      · rw [hx]
        exact safe_pure answered_nil
      · exact safe_mono (answered_maskLoop hmask t _ _ _ _ h2) fun l hl => .inr ⟨t, s, answers, h1, hl⟩
    · split
      · exact safe_pure hl
      · exact safe_pure answered_nil
  · exact safe_bind (answered_parseAddress henv hlook hrange _ _) fun _ h => safe_pure h

theorem answered_parseUnsorted (hsep : separators c = []) (inp : Str) : Safe c (parseUnsorted env inp) (Answered env c) := by
  rw [parseUnsorted]
  refine safe_bind safe_config fun c' hc => ?_
  rw [hc, if_pos hsep, parseSingle]
  refine safe_bind safe_config fun c' hc => ?_
  rw [hc]
  dsimp only
  split
  · refine safe_bind (R := fun _ => True) (safe_lift ?_) fun e _ => answered_parseCidr henv hlook hrange hmask e
    rw [substr, if_neg]
    · exact ⟨_, rfl, trivial⟩
    · have := takeWhile_le isSpace inp
      rw [singleStart]
      omega
  · exact answered_parseCidr henv hlook hrange hmask inp

end

end Verif.Parser
