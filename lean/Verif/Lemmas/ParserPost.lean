import Verif.Lemmas.ParserList
import Verif.Props.RangeOrder
import Verif.Lemmas.Net
import Verif.SpecParse

/-!
# Lemmas about the parser: where the addresses returned come from
-/

namespace Verif.Parser

open Spec

/-- What is known of the value returned by a computation, if it returns one. -/
def Post {α : Type} (c : Config) (m : PM α) (Q : α → Prop) : Prop :=
  ∀ p : Parser, p.config = c → (m p).1.config = c ∧ ∀ a, (m p).2 = .ok a → Q a

theorem post_pure {α : Type} (c : Config) {a : α} {Q : α → Prop} (h : Q a) : Post c (Pure.pure a : PM α) Q :=
  fun _ hp => ⟨hp, fun b hb => by cases hb; exact h⟩

theorem post_throw {α : Type} (c : Config) (e : Exc) (Q : α → Prop) : Post c (PM.throw e : PM α) Q :=
  fun p hp => ⟨hp, fun b hb => by cases hb⟩

theorem post_emit (c : Config) (msg : Str) : Post c (emitError msg) fun _ => True :=
  fun p hp => ⟨by rw [emitError_apply]; exact hp, fun _ _ => trivial⟩

theorem post_lift {α : Type} (c : Config) {r : Res α} {Q : α → Prop} (h : ∀ a, r = .ok a → Q a) : Post c (PM.lift r) Q :=
  fun _ hp => ⟨hp, fun b hb => h b hb⟩

theorem post_config {β : Type} {c : Config} {f : Config → PM β} {Q : β → Prop} (h : Post c (f c) Q) :
    Post c (PM.config >>= f) Q := by
  intro p hp
  rw [PM.config_bind, hp]
  exact h p hp

theorem post_getAllow {β : Type} {c : Config} {x : Allow} {f : Bool → PM β} {Q : β → Prop} (h : Post c (f (c.flags x)) Q) :
    Post c (getAllow x >>= f) Q := by
  intro p hp
  have e : (getAllow x >>= f) p = f (p.config.flags x) p := rfl
  rw [e, hp]
  exact h p hp

theorem post_errorCountNow {β : Type} {c : Config} {f : Int → PM β} {Q : β → Prop} (h : ∀ n, Post c (f n) Q) :
    Post c (errorCountNow >>= f) Q := by
  intro p hp
  have e : (errorCountNow >>= f) p = f p.errorCount p := rfl
  rw [e]
  exact h _ p hp

theorem post_bind {α β : Type} {c : Config} {m : PM α} {f : α → PM β} {R : α → Prop} {Q : β → Prop} (h1 : Post c m R)
    (h2 : ∀ a, R a → Post c (f a) Q) : Post c (m >>= f) Q := by
  intro p hp
  obtain ⟨h3, h4⟩ := h1 p hp
  rw [PM.bind_def]
  cases hm : m p with
  | mk q r =>
    rw [hm] at h3 h4
    cases r with
    | ok a => exact h2 a (h4 a rfl) q h3
    | throw e => exact ⟨h3, fun _ hb => by cases hb⟩
    | ub w => exact ⟨h3, fun _ hb => by cases hb⟩

theorem post_mono {α : Type} {c : Config} {m : PM α} {Q R : α → Prop} (h : Post c m Q) (hqr : ∀ a, Q a → R a) : Post c m R :=
  fun p hp => ⟨(h p hp).1, fun a ha => hqr a ((h p hp).2 a ha)⟩

/-- All the ranges of a list have a property. -/
def All (P : Range → Prop) (l : List Range) : Prop := ∀ r ∈ l, P r

theorem all_nil (P : Range → Prop) : All P [] := fun _ h => by cases h

theorem all_append {P : Range → Prop} {l l' : List Range} (h : All P l) (h' : All P l') : All P (l ++ l') := by
  intro r hr
  rcases List.mem_append.1 hr with hr | hr
  · exact h r hr
  · exact h' r hr

theorem all_single {P : Range → Prop} {r : Range} (h : P r) : All P [r] := by
  intro x hx
  rw [List.mem_singleton] at hx
  rw [hx]
  exact h

theorem post_prepend {c : Config} {P : Range → Prop} {m : PM (List Range)} {result : List Range} (hr : All P result)
    (h : Post c m (All P)) : Post c (prepend result m) (All P) :=
  post_bind h fun _ ha => post_pure c (all_append hr ha)

theorem source_mono {env : ParseEnv} {c : Config} {s t : Str} {a : Addr} (h : Source env c s a) (hst : s <:+: t) :
    Source env c t a := by
  obtain ⟨q, h1, h2, h3, h4, h5⟩ := h
  refine ⟨q, ?_, ?_, h3, fun g1 g2 => ⟨(h4 g1 g2).1, fun g3 => ((h4 g1 g2).2 g3).imp_right fun g => g.imp_left fun g => hst.subset g⟩,
    h5⟩
  · rcases h1 with h1 | h1
    · exact .inl ⟨h1.1, h1.2.trans hst⟩
    · exact .inr h1
  · rcases h2 with h2 | h2
    · exact .inl ⟨h2.1, h2.2.1, h2.2.2.trans hst⟩
    · exact .inr h2

/-- What a mask leaves as it is. -/
def SameSource (a b : Addr) : Prop :=
  b.hostname = a.hostname ∧ b.portDefined = a.portDefined ∧ b.address = a.address ∧ b.privateNetwork = a.privateNetwork

theorem source_congr {env : ParseEnv} {c : Config} {s : Str} {a b : Addr} (h : Source env c s a) (hs : SameSource a b) :
    Source env c s b := by
  obtain ⟨q, h1, h2, h3, h4, h5⟩ := h
  refine ⟨q, by rw [hs.1]; exact h1, by rw [hs.2.1]; exact h2, ?_, by rw [hs.1, hs.2.1]; exact h4, by rw [hs.2.2.2]; exact h5⟩
  rw [hs.1]
  unfold Denotes at h3 ⊢
  unfold Addr.getIpv6 Addr.getPort at h3 ⊢
  rw [hs.2.2.1]
  exact h3

/-- A range made of one address. -/
def Single (env : ParseEnv) (c : Config) (inp : Str) (r : Range) : Prop :=
  r.hasFrom = true ∧ r.hasTo = false ∧ Source env c inp r.lo

/-- Every bound comes from the input. -/
def Bounds (env : ParseEnv) (c : Config) (inp : Str) (r : Range) : Prop :=
  Defined r ∧ (r.hasFrom = true → Source env c inp r.lo) ∧ (r.hasTo = true → Source env c inp r.hi)

theorem bounds_of_single {env : ParseEnv} {c : Config} {inp : Str} {r : Range} (h : Single env c inp r) : Bounds env c inp r :=
  ⟨Or.inl h.1, fun _ => h.2.2, fun h' => by rw [h.2.1] at h'; cases h'⟩

theorem bounds_swap {env : ParseEnv} {c : Config} {inp : Str} {r : Range} (h : Bounds env c inp r) :
    Bounds env c inp r.swapFromTo :=
  ⟨h.1.symm, h.2.2, h.2.1⟩

theorem bounds_mono {env : ParseEnv} {c : Config} {s t : Str} {r : Range} (h : Bounds env c s r) (hst : s <:+: t) :
    Bounds env c t r :=
  ⟨h.1, fun h' => source_mono (h.2.1 h') hst, fun h' => source_mono (h.2.2 h') hst⟩

/-- What `makeRange` makes. -/
theorem makeRange_ok {a : Res Addr} {hostname : Str} {protocol : Int} {d : Bool} {r : Range}
    (h : makeRange a hostname protocol d = .ok r) :
    r.hasFrom = true ∧ r.hasTo = false ∧ r.lo.hostname = hostname ∧ r.lo.portDefined = d
      ∧ ∃ a', a = .ok a' ∧ r.lo.address = a'.address
          ∧ (a'.privateNetwork = .undefined → r.lo.privateNetwork = .undefined) := by
  rw [makeRange] at h
  cases a with
  | throw e => cases h
  | ub w => cases h
  | ok a =>
    simp only [Res.bind_ok] at h
    have h1 : onLocal (Addr.setHostname hostname) a = .ok { a with hostname := hostname } := rfl
    rw [h1] at h
    simp only [Res.bind_ok] at h
    have hfin : ∀ b : Addr, b.hostname = hostname ∧ b.address = a.address
          ∧ (a.privateNetwork = .undefined → b.privateNetwork = .undefined) →
        (onLocal (Addr.setPortDefined d) b >>= fun a => (Pure.pure (Range.default.setFrom a) : Res Range)) = .ok r →
        r.hasFrom = true ∧ r.hasTo = false ∧ r.lo.hostname = hostname ∧ r.lo.portDefined = d
          ∧ ∃ a', Res.ok a = .ok a' ∧ r.lo.address = a'.address
          ∧ (a'.privateNetwork = .undefined → r.lo.privateNetwork = .undefined) := by
      intro b hb he
      have h2 : onLocal (Addr.setPortDefined d) b = .ok { b with portDefined := d } := rfl
      rw [h2] at he
      cases he
      exact ⟨rfl, rfl, hb.1, rfl, a, rfl, hb.2⟩
    by_cases hp : protocol ≠ -1
    · rw [if_pos hp] at h
      cases h2 : onLocal (Addr.setProtocol protocol) { a with hostname := hostname } with
      | throw e => rw [h2] at h; cases h
      | ub w => rw [h2] at h; cases h
      | ok b =>
        rw [h2] at h
        refine hfin b ?_ h
        simp only [onLocal, Addr.setProtocol] at h2
        split at h2
        · rename_i a' ha'
          cases h2
          revert ha'
          repeat' split
          all_goals intro ha'; simp at ha'
          · rw [← ha']; exact ⟨rfl, rfl, fun _ => rfl⟩
          · rw [← ha']; exact ⟨rfl, rfl, fun h => h⟩
        · cases h2
        · cases h2
    · rw [if_neg hp] at h
      exact hfin { a with hostname := hostname } ⟨rfl, rfl, fun h => h⟩ h

/-- The texts which may go with a new address, and the number of the port. -/
def Given (c : Config) (inp t q : Str) (d : Bool) : Prop := AddressText c inp t ∧ PortText c inp q d ∧ PortPasses c inp t q d

theorem single_makeRange {env : ParseEnv} {c : Config} {inp : Str} {a : Res Addr} {t q : Str} {protocol : Int} {d : Bool}
    {r : Range} (h : makeRange a t protocol d = .ok r) (hg : Given c inp t q d)
    (hu : ∀ a', a = .ok a' → a'.privateNetwork = .undefined)
    (hd : ∀ a', a = .ok a' → ∀ b : Addr, b.address = a'.address → Denotes env c t q b) : Single env c inp r := by
  obtain ⟨h1, h2, h3, h4, a', ha, h5, h6⟩ := makeRange_ok h
  refine ⟨h1, h2, q, by rw [h3]; exact hg.1, by rw [h4]; exact hg.2.1, ?_, by rw [h3, h4]; exact hg.2.2, h6 (hu a' ha)⟩
  rw [h3]
  exact hd a' ha r.lo h5

theorem ofIn_address {sa : SockaddrIn} {a : Addr} (h : Addr.ofIn sa = .ok a) :
    a.address = { family := AF_INET6, port := sa.port, flowinfo := 0, scope := 0, addr := mapped sa.addr } := by
  unfold Addr.ofIn Addr.setIpv4 at h
  by_cases hf : sa.family ≠ AF_INET
  · rw [if_pos hf] at h; cases h
  · rw [if_neg hf] at h; cases h; rfl

theorem ofIn6_address {sa : SockaddrIn6} {a : Addr} (h : Addr.ofIn6 sa = .ok a) : a.address = sa := by
  unfold Addr.ofIn6 Addr.setIpv6 at h
  by_cases hf : sa.family ≠ AF_INET6
  · rw [if_pos hf] at h; cases h
  · rw [if_neg hf] at h; cases h; rfl

theorem ofIn_new {sa : SockaddrIn} {a : Addr} (h : Addr.ofIn sa = .ok a) : a.privateNetwork = .undefined := by
  unfold Addr.ofIn Addr.setIpv4 at h
  by_cases hf : sa.family ≠ AF_INET
  · rw [if_pos hf] at h; cases h
  · rw [if_neg hf] at h; cases h; rfl

theorem ofIn6_new {sa : SockaddrIn6} {a : Addr} (h : Addr.ofIn6 sa = .ok a) : a.privateNetwork = .undefined := by
  unfold Addr.ofIn6 Addr.setIpv6 at h
  by_cases hf : sa.family ≠ AF_INET6
  · rw [if_pos hf] at h; cases h
  · rw [if_neg hf] at h; cases h; rfl

section
variable {env : ParseEnv} {c : Config} {inp : Str}

theorem post_emit_then {P : Range → Prop} (msg : Str) :
    Post c (emitError msg >>= fun _ => (Pure.pure [] : PM (List Range))) (All P) :=
  post_bind (post_emit c msg) fun _ _ => post_pure c (all_nil P)

theorem post_addrinfoLoop {t q : Str} {d : Bool} (hg : Given c inp t q d) (hf : c.flags .addressLookup = true)
    (all : List AddrInfo)
    (hall : env.getaddrinfo (cstr t) (if q = [] then ['0'] else cstr q) false (hintProtocol c.protocol) = .list all)
    (l : List AddrInfo) (hl : ∀ x ∈ l, x ∈ all) (first : Bool) (result : List Range) (hr : All (Single env c inp) result) :
    Post c (addrinfoLoop t d l first result) (All (Single env c inp)) := by
  induction l generalizing first result with
  | nil => exact post_pure c hr
  | cons x l ih =>
    have ih := ih fun y hy => hl y (List.mem_cons_of_mem _ hy)
    have hx := hl x (List.mem_cons_self ..)
    cases x with
    | inet len protocol sa =>
      rw [addrinfoLoop]
      split
      · exact post_bind (post_emit c _) fun _ _ => ih _ _ hr
      · refine post_bind (R := Single env c inp) (post_lift c fun r h => single_makeRange h hg (fun _ => ofIn_new) ?_) fun r h => ?_
        · intro a' ha b hb
          rw [Denotes, if_pos hf]
          refine ⟨all, hall, _, hx, ?_⟩
          rw [Addr.getIpv6, hb, ofIn_address ha]
          rfl
        · exact ih _ _ (all_append hr (all_single h))
    | inet6 len protocol sa =>
      rw [addrinfoLoop]
      split
      · exact post_bind (post_emit c _) fun _ _ => ih _ _ hr
      · refine post_bind (R := Single env c inp) (post_lift c fun r h => single_makeRange h hg (fun _ => ofIn6_new) ?_) fun r h => ?_
        · intro a' ha b hb
          rw [Denotes, if_pos hf]
          refine ⟨all, hall, _, hx, ?_⟩
          rw [Addr.getIpv6, hb, ofIn6_address ha]
          rfl
        · exact ih _ _ (all_append hr (all_single h))
    | other family =>
      rw [addrinfoLoop]
      split
      · exact post_bind (post_emit c _) fun _ _ => ih _ _ hr
      · exact ih _ _ hr

theorem getPort_of_int {a : Addr} {n : Int} (h0 : 0 ≤ n) (h1 : n ≤ 65535) (h : a.address.port = swap16 (BitVec.ofInt 16 n)) :
    (a.getPort : Int) = n := by
  rw [Addr.getPort, h, swap16_swap16, BitVec.toNat_ofInt]
  omega

theorem post_numericAddress {t q : Str} {d : Bool} (hg : Given c inp t q d) (hf : c.flags .addressLookup = false) (port : Int)
    (h0 : 0 ≤ port) (h1 : port ≤ 65535) (hq : (q = [] ∧ port = 0) ∨ (q ≠ [] ∧ env.convert q = some port)) :
    Post c (numericAddress t port d []) (All (Single env c inp)) := by
  have hport : ∀ b : Addr, b.address.port = swap16 (BitVec.ofInt 16 port) → PortNumber env q b.getPort := by
    intro b hb
    have := getPort_of_int h0 h1 hb
    rcases hq with ⟨h, h'⟩ | ⟨h, h'⟩
    · exact .inl ⟨h, by omega⟩
    · exact .inr ⟨h, by rw [this]; exact h'⟩
  have hf' : ¬ c.flags .addressLookup = true := by rw [hf]; exact Bool.false_ne_true
  rw [numericAddress]
  refine post_config ?_
  dsimp only
  cases h4 : Inet.pton4 (cstr t) with
  | some b4 =>
    refine post_bind (R := Single env c inp) (post_lift c fun r h => single_makeRange h hg (fun _ => ofIn_new) ?_) fun r h => post_pure c (all_single h)
    intro a' ha b hb
    rw [ofIn_address ha] at hb
    rw [Denotes, if_neg hf', Addr.getIpv6]
    exact ⟨.inl ⟨b4, h4, by rw [hb]⟩, hport b (by rw [hb])⟩
  | none =>
    dsimp only
    cases h6 : Inet.pton6 (cstr t) with
    | some b6 =>
      refine post_bind (R := Single env c inp) (post_lift c fun r h => single_makeRange h hg (fun _ => ofIn6_new) ?_) fun r h => post_pure c (all_single h)
      intro a' ha b hb
      rw [ofIn6_address ha] at hb
      rw [Denotes, if_neg hf', Addr.getIpv6]
      exact ⟨.inr ⟨h4, by rw [hb, h6]⟩, hport b (by rw [hb])⟩
    | none => exact post_emit_then _

/-- The places of a port which is not checked. -/
def Follows (c : Config) (inp address : Str) (v6 : Bool) : Prop :=
  c.flags .port = false → c.flags .requiredPort = false →
    (address ≠ [] ∧ '.' ∉ address) ∨ ']' ∈ inp ∨ (address = [] ∧ v6 = true)

theorem post_parseAddressPort (env : ParseEnv) {address port : Str} (v6 : Bool) (hi : address <:+: inp) 
    (hq : port ≠ [] → ':' :: port <:+: inp ∧ Follows c inp address v6) :
    Post c (parseAddressPort env address port [] v6) (All (Single env c inp)) := by
  rw [parseAddressPort]
  refine post_config ?_
  dsimp only
  split
  · exact post_emit_then _
  rename_i hport
  split
  · exact post_emit_then _
  rename_i haddr
  have hg : AddressText c inp (if address = [] then
          if v6 = true then (if c.defaultAddress6 = [] then "::".toList else c.defaultAddress6)
          else (if c.defaultAddress4 = [] then "0.0.0.0".toList else c.defaultAddress4)
        else address) := by
    by_cases h : address = []
    · rw [if_pos h]
      refine .inr ⟨?_, ?_⟩
      · cases hr : c.flags .requiredAddress with
        | true => rw [hr, h] at haddr; exact absurd rfl haddr
        | false => rfl
      · cases v6
        · exact .inl (if_neg Bool.false_ne_true)
        · exact .inr (if_pos rfl)
    · rw [if_neg h]
      exact .inl ⟨h, hi⟩
  have hpt : PortText c inp (if (!decide (port ≠ []) && decide (c.defaultPort ≠ -1)) = true then intStr c.defaultPort else port)
      (decide (port ≠ [])) := by
    by_cases h : port = []
    · rw [h] at hport ⊢
      refine .inr ⟨rfl, ?_, ?_⟩
      · cases hr : c.flags .requiredPort with
        | true => rw [hr] at hport; exact absurd rfl hport
        | false => rfl
      · by_cases hd : c.defaultPort = -1
        · rw [if_pos hd, if_neg]
          rw [hd]; decide
        · rw [if_neg hd, if_pos]
          rw [Bool.and_eq_true]
          exact ⟨rfl, decide_eq_true hd⟩
    · refine .inl ⟨decide_eq_true h, ?_⟩
      rw [if_neg]
      · exact ⟨h, (hq h).1⟩
      · rw [decide_eq_true h]; exact Bool.false_ne_true
  have hreq : c.flags .requiredPort = true → port ≠ [] := by
    intro h hp
    rw [h, hp] at hport
    exact hport rfl
  have hne : port ≠ [] → (if (!decide (port ≠ []) && decide (c.defaultPort ≠ -1)) = true then intStr c.defaultPort else port) ≠ [] := by
    intro h
    rw [if_neg]
    · exact h
    · rw [decide_eq_true h]; exact Bool.false_ne_true
  have hpass : decide (port ≠ []) = true → c.flags .port = false → c.flags .requiredPort = false → '.' ∉ (if address = [] then
          if v6 = true then (if c.defaultAddress6 = [] then "::".toList else c.defaultAddress6)
          else (if c.defaultAddress4 = [] then "0.0.0.0".toList else c.defaultAddress4)
        else address) ∨ ']' ∈ inp ∨ (if address = [] then
          if v6 = true then (if c.defaultAddress6 = [] then "::".toList else c.defaultAddress6)
          else (if c.defaultAddress4 = [] then "0.0.0.0".toList else c.defaultAddress4)
        else address) = (if c.defaultAddress6 = [] then "::".toList else c.defaultAddress6) := by
    intro h g1 g2
    rcases (hq (of_decide_eq_true h)).2 g1 g2 with ⟨h1, h2⟩ | h1 | ⟨h1, h2⟩
    · rw [if_neg h1]
      exact .inl h2
    · exact .inr (.inl h1)
    · rw [if_pos h1, if_pos h2]
      exact .inr (.inr rfl)
  revert hg hpt hne hpass
  generalize (if address = [] then
          if v6 = true then (if c.defaultAddress6 = [] then "::".toList else c.defaultAddress6)
          else (if c.defaultAddress4 = [] then "0.0.0.0".toList else c.defaultAddress4)
        else address) = t
  generalize (if (!decide (port ≠ []) && decide (c.defaultPort ≠ -1)) = true then intStr c.defaultPort else port) = q
  intro hg hpt hne hpass
  cases hf : c.flags .addressLookup with
  | true =>
    rw [if_pos rfl, lookupAddress]
    refine post_config ?_
    split
    · exact post_emit_then _
    · rename_i l hl
      have hg : Given c inp t q (decide (port ≠ [])) :=
        ⟨hg, hpt, fun g1 g2 => ⟨fun h => (nomatch hf.symm.trans h), fun h => hpass h g1 g2⟩⟩
      exact post_addrinfoLoop hg hf l hl l (fun _ h => h) _ _ (all_nil _)
  | false =>
    rw [if_neg Bool.false_ne_true, noLookupAddress]
    refine post_getAllow (post_getAllow ?_)
    split
    · rename_i hrq
      have hq0 : q ≠ [] := by
        rw [Bool.or_eq_true] at hrq
        rcases hrq with h | h
        · exact hne (hreq h)
        · exact of_decide_eq_true h
      split
      · exact post_emit_then _
      · rename_i n hn
        split
        · exact post_emit_then _
        · rename_i hrange
          split
          · exact post_emit_then _
          · rename_i hallow
            have hg : Given c inp t q (decide (port ≠ [])) :=
              ⟨hg, hpt, fun g1 g2 => by rw [g1, g2] at hallow; exact absurd rfl hallow⟩
            exact post_numericAddress hg hf n (by omega) (by omega) (.inr ⟨hq0, hn⟩)
    · rename_i hrq
      have hq0 : q = [] := by
        rw [Bool.or_eq_true, not_or] at hrq
        exact Decidable.not_not.1 (fun h => hrq.2 (decide_eq_true h))
      have hg : Given c inp t q (decide (port ≠ [])) :=
        ⟨hg, hpt, fun g1 g2 => ⟨fun _ => hq0, fun h => hpass h g1 g2⟩⟩
      exact post_numericAddress hg hf 0 (by omega) (by omega) (.inl ⟨hq0, rfl⟩)

theorem dropDuplicates_mem {a : Addr} {l l' : List Range} (h : dropDuplicates a l = .ok l') : ∀ r ∈ l', r ∈ l := by
  induction l with
  | nil => rw [dropDuplicates] at h; cases h; exact fun _ h => h
  | cons x l ih =>
    rw [dropDuplicates] at h
    cases h1 : onLocal (Addr.setProtocol a.protocol) x.lo with
    | throw e => rw [h1] at h; cases h
    | ub w => rw [h1] at h; cases h
    | ok n =>
      rw [h1] at h
      simp only [Res.bind_ok] at h
      split at h
      · cases h; exact fun _ h => h
      · exact fun r hr => List.mem_cons_of_mem _ (ih h r hr)

theorem post_parseBound (env : ParseEnv) (which : Str) {address port : Str} (v6 : Bool) (hi : address <:+: inp) 
    (hq : port ≠ [] → ':' :: port <:+: inp ∧ Follows c inp address v6) :
    Post c (parseBound env which address port v6) (fun o => ∀ r, o = some r → Single env c inp r) := by
  rw [parseBound]
  refine post_bind (R := All (Single env c inp)) ?_ ?_
  · rw [ignoreDuplicates]
    refine post_bind (post_parseAddressPort env v6 hi hq) fun l hl => ?_
    cases l with
    | nil => exact post_pure c (all_nil _)
    | cons r l =>
      refine post_bind (R := All (Single env c inp)) (post_lift c fun l' h' => ?_) fun l' h' => ?_
      · exact fun x hx => hl x (List.mem_cons_of_mem _ (dropDuplicates_mem h' x hx))
      · refine post_pure c ?_
        intro x hx
        rcases List.mem_cons.1 hx with hx | hx
        · rw [hx]; exact hl r (List.mem_cons_self ..)
        · exact h' x hx
  · intro l hl
    match l, hl with
    | [], _ => exact post_pure c fun r h => by cases h
    | [r], hl => exact post_pure c fun x h => by cases h; exact hl r (List.mem_cons_self ..)
    | _ :: _ :: _, _ => exact post_bind (post_emit c _) fun _ _ => post_pure c fun r h => by cases h

theorem post_parseAddressRangePort (env : ParseEnv) {addresses port : Str} (v6 : Bool) (hi : addresses <:+: inp) 
    (hq : port ≠ [] → ':' :: port <:+: inp ∧ Follows c inp addresses v6) :
    Post c (parseAddressRangePort env addresses port [] v6) (All (Bounds env c inp)) := by
  rw [parseAddressRangePort]
  refine post_config ?_
  cases hs : (if c.flags .addressRange then splitFirst '-' addresses else none) with
  | none =>
    exact post_mono (post_parseAddressPort env v6 hi hq) fun l hl r hr => bounds_of_single (hl r hr)
  | some x =>
    obtain ⟨frm, to⟩ := x
    have hx : frm <:+: inp ∧ to <:+: inp := by
      by_cases hf : c.flags .addressRange = true
      · rw [if_pos hf] at hs
        have h1 := (splitFirst_some hs).1
        refine ⟨List.IsInfix.trans ⟨[], '-' :: to, ?_⟩ hi, List.IsInfix.trans ⟨frm ++ ['-'], [], ?_⟩ hi⟩
        · rw [List.nil_append]; exact h1.symm
        · rw [List.append_nil, List.append_assoc]; exact h1.symm
      · rw [if_neg hf] at hs; cases hs
    have hne : addresses ≠ [] := by
      rintro rfl
      rw [show splitFirst '-' [] = none from rfl, ite_self] at hs
      cases hs
    have hsub : ∀ s, s ≠ [] → (∀ y ∈ s, y ∈ addresses) → port ≠ [] → ':' :: port <:+: inp ∧ Follows c inp s v6 := by
      refine fun s h1 h2 h3 => ⟨(hq h3).1, fun g1 g2 => ?_⟩
      rcases (hq h3).2 g1 g2 with h | h | h
      · exact .inl ⟨h1, fun hd => h.2 (h2 _ hd)⟩
      · exact .inr (.inl h)
      · exact absurd h.1 hne
    have hmem : (∀ y ∈ frm, y ∈ addresses) ∧ (∀ y ∈ to, y ∈ addresses) := by
      by_cases hf : c.flags .addressRange = true
      · rw [if_pos hf] at hs
        rw [(splitFirst_some hs).1]
        exact ⟨fun y hy => List.mem_append_left _ hy, fun y hy => List.mem_append_right _ (List.mem_cons_of_mem _ hy)⟩
      · rw [if_neg hf] at hs; cases hs
    cases frm with
    | nil =>
      cases to with
      | nil => exact post_emit_then _
      | cons y to =>
        refine post_bind (post_parseBound env _ v6 hx.2 (hsub _ (List.cons_ne_nil _ _) hmem.2)) fun o ho => ?_
        cases o with
        | none => exact post_pure c (all_nil _)
        | some r => exact post_pure c (all_single (bounds_swap (bounds_of_single (ho r rfl))))
    | cons y frm =>
      cases to with
      | nil =>
        refine post_bind (post_parseBound env _ v6 hx.1 (hsub _ (List.cons_ne_nil _ _) hmem.1)) fun o ho => ?_
        cases o with
        | none => exact post_pure c (all_nil _)
        | some r => exact post_pure c (all_single (bounds_of_single (ho r rfl)))
      | cons z to =>
        refine post_bind (post_parseBound env _ v6 hx.1 (hsub _ (List.cons_ne_nil _ _) hmem.1)) fun o ho => ?_
        cases o with
        | none => exact post_pure c (all_nil _)
        | some r =>
          refine post_bind (post_parseBound env _ v6 hx.2 (hsub _ (List.cons_ne_nil _ _) hmem.2)) fun o ho' => ?_
          cases o with
          | none => exact post_pure c (all_nil _)
          | some t =>
            have hb : Bounds env c inp (r.setTo t.swapFromTo.hi) :=
              ⟨Or.inr rfl, fun _ => (ho r rfl).2.2, fun _ => (ho' t rfl).2.2⟩
            dsimp only
            split
            · exact post_pure c (all_single hb)
            · exact post_pure c (all_nil _)

theorem splitFirst_infix {x : Char} {s a b : Str} (h : splitFirst x s = some (a, b)) : a <:+: s ∧ b <:+: s := by
  have h1 := (splitFirst_some h).1
  refine ⟨⟨[], x :: b, ?_⟩, ⟨a ++ [x], [], ?_⟩⟩
  · rw [List.nil_append]; exact h1.symm
  · rw [List.append_nil, List.append_assoc]; exact h1.symm

theorem splitFirst_port {x : Char} {s a b : Str} (h : splitFirst x s = some (a, b)) : x :: b <:+: s :=
  ⟨a, [], by rw [List.append_nil]; exact (splitFirst_some h).1.symm⟩

theorem post_parseAddress4 (env : ParseEnv) {s : Str} (hi : s <:+: inp) :
    Post c (parseAddress4 env s []) (All (Bounds env c inp)) := by
  rw [parseAddress4]
  refine post_config ?_
  cases hs : splitFirst ':' s with
  | none => exact post_parseAddressRangePort env _ hi (fun h => absurd rfl h)
  | some x =>
    dsimp only
    split
    · rename_i hallow
      refine post_parseAddressRangePort env _ ((splitFirst_infix hs).1.trans hi) (fun _ => ⟨(splitFirst_port hs).trans hi, fun g1 g2 => ?_⟩)
      rw [g1, g2] at hallow
      cases hallow
    · exact post_emit_then _

theorem post_parseAddress6 (env : ParseEnv) {s : Str} (n : Nat) (hi : s <:+: inp)
    (hfol : n = 1 → s.head? ≠ some '[' → ∀ a b, splitFirst ':' s = some (a, b) → Follows c inp a true) :
    Post c (parseAddress6 env s n []) (All (Bounds env c inp)) := by
  rw [parseAddress6]
  refine post_config ?_
  split
  · have hd : s.drop 1 <:+: inp := (List.drop_suffix 1 s).isInfix.trans hi
    cases hs : splitFirst ']' (s.drop 1) with
    | none => exact post_emit_then _
    | some x =>
      obtain ⟨a, b⟩ := x
      have ha := (splitFirst_infix hs).1.trans hd
      cases b with
      | nil => exact post_parseAddressRangePort env _ ha (fun h => absurd rfl h)
      | cons y b =>
        dsimp only
        split
        · exact post_emit_then _
        · split
          · exact post_emit_then _
          · rename_i hy hallow
            refine post_parseAddressRangePort env _ ha fun _ => ⟨?_, fun g1 g2 => ?_⟩
            · rw [← Decidable.not_not.1 hy]
              exact (splitFirst_infix hs).2.trans hd
            · rw [g1, g2] at hallow
              exact absurd rfl hallow
  · split
    · cases hs : splitFirst ':' s with
      | none => exact post_throw c _ _
      | some x =>
        rename_i hhead hn
        exact post_parseAddressRangePort env _ ((splitFirst_infix hs).1.trans hi)
          (fun _ => ⟨(splitFirst_port hs).trans hi, hfol hn hhead _ _ hs⟩)
    · exact post_parseAddressRangePort env _ hi (fun h => absurd rfl h)

theorem post_parseAddress (env : ParseEnv) {s : Str} (mask : Str) (hi : s <:+: inp) :
    Post c (parseAddress env s mask []) (fun x => All (Bounds env c inp) x.2) := by
  have h4 : Post c (parseAddress4 env s [] >>= fun l => (Pure.pure (true, l) : PM (Bool × List Range)))
      (fun x => All (Bounds env c inp) x.2) :=
    post_bind (post_parseAddress4 env hi) fun l hl => post_pure c hl
  have h6 : (s.count ':' = 1 → s.head? ≠ some '[' → ∀ a b, splitFirst ':' s = some (a, b) → Follows c inp a true) →
      Post c (parseAddress6 env s (s.count ':') [] >>= fun l => (Pure.pure (false, l) : PM (Bool × List Range)))
        (fun x => All (Bounds env c inp) x.2) :=
    fun h => post_bind (post_parseAddress6 env _ hi h) fun l hl => post_pure c hl
  rw [parseAddress]
  refine post_config ?_
  dsimp only
  split
  · exact h6 fun h => by omega
  split
  · rename_i hhead
    have hfol : s.count ':' = 1 → s.head? ≠ some '[' → ∀ a b, splitFirst ':' s = some (a, b) → Follows c inp a true := by
      intro _ _ a b hs _ _
      rcases hhead with h | h
      · rw [h] at hs; cases hs
      · cases s with
        | nil => cases h
        | cons x s =>
          cases h
          rw [splitFirst, if_pos rfl] at hs
          cases hs
          exact .inr (.inr ⟨rfl, rfl⟩)
    repeat' (first | exact h4 | exact h6 hfol | split)
  rename_i hhead
  split
  · rename_i hb
    refine h6 fun _ hh a b hs _ _ => ?_
    rcases hb with hb | hb
    · exact absurd hb hh
    · exact .inr (.inl (hi.subset hb))
  split
  · split
    · exact h4
    · split
      · exact h4
      · rename_i before _ hs hdot
        refine h6 fun _ _ a b hs' _ _ => ?_
        rw [hs'] at hs
        cases hs
        refine .inl ⟨?_, hdot⟩
        rintro rfl
        have := (splitFirst_some hs').1
        exact hhead (.inr (by rw [this]; rfl))
  · exact h4

theorem post_setMask (bits : Bytes16) (a : Addr) : Post c (PM.lift (onLocal (Addr.setMask bits) a)) (SameSource a) :=
  post_lift c fun b h => by cases h; exact ⟨rfl, rfl, rfl, rfl⟩

theorem post_parseMask (env : ParseEnv) (mask : Str) (a : Addr) (v4 : Bool) :
    Post c (parseMask env mask a v4) (SameSource a) := by
  have hs : Post c (Pure.pure a : PM Addr) (SameSource a) := post_pure c ⟨rfl, rfl, rfl, rfl⟩
  rw [parseMask]
  split
  · exact hs
  · split
    · exact post_bind (post_emit c _) fun _ _ => hs
    · split
      · exact post_bind (post_emit c _) fun _ _ => hs
      · split
        · exact post_bind (post_emit c _) fun _ _ => hs
        · exact post_bind (R := fun _ => True) (post_lift c fun _ _ => trivial) fun _ _ => post_setMask _ a
    · refine post_bind (R := fun _ => True) ?_ fun o _ => ?_
      · obtain ⟨errs, r, hl⟩ := logging_addressMask env c mask a v4
        intro p hp
        rw [hl p hp]
        exact ⟨by rw [emitAll_config]; exact hp, fun _ _ => trivial⟩
      · cases o with
        | none => exact hs
        | some bits => exact post_setMask _ a

theorem post_maskLoop (env : ParseEnv) (mask : Str) (v4 : Bool) (l : List Range) (hl : All (Bounds env c inp) l) :
    Post c (maskLoop env mask v4 l) (All (Bounds env c inp)) := by
  induction l with
  | nil => exact post_pure c (all_nil _)
  | cons x l ih =>
    rw [maskLoop]
    refine post_config (post_bind (post_parseMask env _ _ _) fun a ha => ?_)
    refine post_bind (ih fun r hr => hl r (List.mem_cons_of_mem _ hr)) fun l' hl' => post_pure c ?_
    have hx := hl x (List.mem_cons_self ..)
    refine fun r hr => ?_
    rcases List.mem_cons.1 hr with hr | hr
    · rw [hr]
      exact ⟨hx.1, fun h => source_congr (hx.2.1 h) ha, hx.2.2⟩
    · exact hl' r hr

theorem post_parseCidr (env : ParseEnv) {s : Str} (hi : s <:+: inp) :
    Post c (parseCidr env s []) (All (Bounds env c inp)) := by
  have ht := (trimString_infix s).trans hi
  rw [parseCidr]
  refine post_config ?_
  dsimp only
  split
  · have ha : ((splitFirst '/' (trimString s)).getD (trimString s, [])).1 <:+: inp := by
      cases hs : splitFirst '/' (trimString s) with
      | none => exact ht
      | some x => exact (splitFirst_infix hs).1.trans ht
    refine post_errorCountNow fun n => ?_
    refine post_bind (post_parseAddress env _ ha) fun x hx => ?_
    refine post_bind (post_maskLoop env _ _ _ hx) fun l hl => ?_
    refine post_errorCountNow fun m => ?_
    split
    · exact post_pure c (all_append (all_nil _) hl)
    · exact post_pure c (all_nil _)
  · exact post_bind (post_parseAddress env _ ht) fun x hx => post_pure c hx

theorem post_seqEntries (env : ParseEnv) (es : List Str) (hi : ∀ e ∈ es, e <:+: inp) :
    Post c (seqEntries env es) (All (Bounds env c inp)) := by
  induction es with
  | nil => exact post_pure c (all_nil _)
  | cons e es ih =>
    rw [seqEntries]
    refine post_bind (post_parseCidr env (hi e (List.mem_cons_self ..))) fun l hl => ?_
    exact post_bind (ih fun x hx => hi x (List.mem_cons_of_mem _ hx)) fun l' hl' => post_pure c (all_append hl hl')

theorem post_parseUnsorted (env : ParseEnv) (inp : Str) : Post c (parseUnsorted env inp) (All (Bounds env c inp)) := by
  rw [parseUnsorted]
  refine post_config ?_
  split
  · rw [parseSingle]
    refine post_config ?_
    dsimp only
    split
    · refine post_bind (R := fun e => e <:+: inp) (post_lift c fun e he => ?_) fun e he => post_parseCidr env he
      rw [substr] at he
      split at he
      · cases he
      · cases he
        exact (List.take_prefix _ _).isInfix.trans (List.drop_suffix _ _).isInfix
    · exact post_parseCidr env (List.infix_refl _)
  · intro p hp
    rw [parseList_eq, hp]
    refine (post_prepend (all_nil _) (post_seqEntries env _ fun e he => ?_)) p hp
    exact (entriesOf_mem c _ _ e he).2.2.2

end

end Verif.Parser
