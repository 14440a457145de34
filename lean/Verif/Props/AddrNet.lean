import Verif.Lemmas.NetType
import Verif.Props.AddrMask

/-!
# Properties C12–C14: network type
-/

namespace Verif

open Spec

instance (v : Nat) : Decidable (isPrivate v) := inferInstanceAs (Decidable (_ ∨ _))
instance (v : Nat) : Decidable (isCarrier v) := inferInstanceAs (Decidable (inBlock ..))
instance (v : Nat) : Decidable (isLinkLocal v) := inferInstanceAs (Decidable (_ ∨ _))
instance (v : Nat) : Decidable (isLoopback v) := inferInstanceAs (Decidable (_ ∨ _))
instance (v : Nat) : Decidable (isMulticast v) := inferInstanceAs (Decidable (_ ∨ _))
instance (v : Nat) : Decidable (isAny v) := inferInstanceAs (Decidable (_ ∨ _))
instance (v : Nat) : Decidable (isDocumentation v) := inferInstanceAs (Decidable (_ ∨ _))

/-- The type which the table of blocks gives to the number of an address. -/
def typeOf (v : Nat) : NetType :=
  if isPrivate v then .priv
  else if isCarrier v then .carrier
  else if isLinkLocal v then .linkLocal
  else if isMulticast v then .multicast
  else if isLoopback v then .loopback
  else if isAny v then .any
  else if isDocumentation v then .documentation
  else .unknown

/-- The cached type is not filled yet or is the one of the current address. -/
def Fresh (a : Addr) : Prop := a.privateNetwork = .undefined ∨ a.privateNetwork = typeOf (ip a.getIpv6.addr)

instance (a : Addr) : Decidable (Fresh a) := inferInstanceAs (Decidable (_ ∨ _))

/-! ## C12 -/

theorem classifyNat_eq_typeOf (v : Nat) : classifyNat v = typeOf v := by
  have h1 := classifyNat_priv v
  have h2 := classifyNat_carrier v
  have h3 := classifyNat_linkLocal v
  have h4 := classifyNat_multicast v
  have h5 := classifyNat_loopback v
  have h6 := classifyNat_any v
  have h7 := classifyNat_documentation v
  have h8 := classifyNat_ne_undefined v
  unfold typeOf
  simp only [← h1, ← h2, ← h3, ← h4, ← h5, ← h6, ← h7]
  cases h : classifyNat v <;> simp_all

/-- C12: the blocks of the table do not overlap, so the order of the tests does not matter: each type is given exactly to
the addresses of its blocks, and `UNDEFINED` to none. -/
theorem C12_table_disjoint (v : Nat) :
    (typeOf v = .priv ↔ isPrivate v) ∧ (typeOf v = .carrier ↔ isCarrier v) ∧ (typeOf v = .linkLocal ↔ isLinkLocal v)
      ∧ (typeOf v = .multicast ↔ isMulticast v) ∧ (typeOf v = .loopback ↔ isLoopback v) ∧ (typeOf v = .any ↔ isAny v)
      ∧ (typeOf v = .documentation ↔ isDocumentation v) ∧ typeOf v ≠ .undefined
      ∧ (typeOf v = .unknown ↔ ¬ isPrivate v ∧ ¬ isCarrier v ∧ ¬ isLinkLocal v ∧ ¬ isMulticast v ∧ ¬ isLoopback v
          ∧ ¬ isAny v ∧ ¬ isDocumentation v) := by
  rw [← classifyNat_eq_typeOf]
  refine ⟨classifyNat_priv v, classifyNat_carrier v, classifyNat_linkLocal v, classifyNat_multicast v,
    classifyNat_loopback v, classifyNat_any v, classifyNat_documentation v, classifyNat_ne_undefined v, ?_⟩
  rw [← classifyNat_priv v, ← classifyNat_carrier v, ← classifyNat_linkLocal v, ← classifyNat_multicast v,
    ← classifyNat_loopback v, ← classifyNat_any v, ← classifyNat_documentation v]
  have := classifyNat_ne_undefined v
  cases h : classifyNat v <;> simp_all

theorem getNetworkType_fresh (a : Addr) (h : Fresh a) : a.getNetworkType.2 = typeOf (ip a.bytes) := by
  unfold Addr.getNetworkType
  split
  · exact (classify_eq a).trans (classifyNat_eq_typeOf _)
  · rename_i h'
    exact h.resolve_left h'

/-- C12: when the type was not asked since the address was set (the cache is empty) `get_network_type()` is the type of the
table, and so is every later answer as long as the address is not changed. -/
theorem C12_network_type (a : Addr) (h : a.privateNetwork = .undefined) :
    a.getNetworkType.2 = typeOf (ip a.getIpv6.addr)
      ∧ a.getNetworkType.1.getNetworkType.2 = typeOf (ip a.getIpv6.addr)
      ∧ a.getNetworkType.1 = { a with privateNetwork := typeOf (ip a.getIpv6.addr) } := by
  have h1 := getNetworkType_fresh a (.inl h)
  have h2 : a.getNetworkType.1 = { a with privateNetwork := typeOf (ip a.getIpv6.addr) } := by
    rw [← classifyNat_eq_typeOf]
    change _ = { a with privateNetwork := classifyNat (ip a.bytes) }
    rw [← classify_eq]
    simp only [Addr.getNetworkType, if_pos h]
  refine ⟨h1, ?_, h2⟩
  rw [h2]
  exact getNetworkType_fresh _ (.inr rfl)

/-- C12: a successful `set_ipv4()` or `set_ipv6()` on any object makes `get_network_type()` the type of the new address. -/
theorem C12_network_type_after_set (a a' : Addr) :
    (∀ s, a.setIpv4 s = (a', .ok ()) → a'.getNetworkType.2 = typeOf (v4 s.addr[0].toNat s.addr[1].toNat s.addr[2].toNat s.addr[3].toNat))
      ∧ (∀ s, a.setIpv6 s = (a', .ok ()) → a'.getNetworkType.2 = typeOf (ip s.addr)) := by
  constructor
  · intro s h
    have hf : s.family = 2 := by
      by_cases hf : s.family = 2
      · exact hf
      · rw [(C01_ipv4_refused a s hf).1] at h; cases h
    obtain ⟨a'', h1, _, _, _, h2, _⟩ := C01_ipv4_roundtrip a s hf
    rw [h1] at h
    obtain rfl : a'' = a' := by cases h; rfl
    have hu : a''.privateNetwork = .undefined := by
      have hne : ¬ s.family ≠ AF_INET := fun h => h hf
      simp only [Addr.setIpv4, if_neg hne] at h1
      cases h1; rfl
    rw [(C12_network_type a'' hu).1, h2]
  · intro s h
    have hf : s.family = 10 := by
      by_cases hf : s.family = 10
      · exact hf
      · rw [(C02_ipv6_refused a s hf).1] at h; cases h
    have hne : ¬ s.family ≠ AF_INET6 := fun h => h hf
    simp only [Addr.setIpv6, if_neg hne] at h
    cases h
    exact (C12_network_type _ rfl).1

example : Addr.default.privateNetwork = .undefined ∧ typeOf (v4 172 31 255 255) = .priv ∧ typeOf (v4 172 32 0 0) = .unknown
    ∧ typeOf (v4 100 127 0 1) = .carrier ∧ typeOf 1 = .loopback ∧ typeOf (0xff32 * 2 ^ 112 + 1) = .linkLocal
    ∧ typeOf (0x3fff0fff * 2 ^ 96) = .documentation ∧ typeOf (0x3fff1000 * 2 ^ 96) = .unknown := by decide +kernel

/-- C12: the name of the type is never missing and tells the types apart. -/
theorem C12_network_type_string (a : Addr) (h : Fresh a) :
    (a.getNetworkTypeString = "Private" ↔ isPrivate (ip a.getIpv6.addr))
      ∧ (a.getNetworkTypeString = "Carrier" ↔ isCarrier (ip a.getIpv6.addr))
      ∧ (a.getNetworkTypeString = "Local Link" ↔ isLinkLocal (ip a.getIpv6.addr))
      ∧ (a.getNetworkTypeString = "Multicast" ↔ isMulticast (ip a.getIpv6.addr))
      ∧ (a.getNetworkTypeString = "Loopback" ↔ isLoopback (ip a.getIpv6.addr))
      ∧ (a.getNetworkTypeString = "Any" ↔ isAny (ip a.getIpv6.addr))
      ∧ (a.getNetworkTypeString = "Documentation" ↔ isDocumentation (ip a.getIpv6.addr))
      ∧ a.getNetworkTypeString ≠ "Undefined" := by
  have ht := getNetworkType_fresh a h
  change _ = typeOf (ip a.getIpv6.addr) at ht
  obtain ⟨h1, h2, h3, h4, h5, h6, h7, h8, _⟩ := C12_table_disjoint (ip a.getIpv6.addr)
  rw [← h1, ← h2, ← h3, ← h4, ← h5, ← h6, ← h7]
  unfold Addr.getNetworkTypeString
  rw [ht]
  cases h : typeOf (ip a.getIpv6.addr) <;> simp_all

/-! ## C13

The full claim is: for every history, `get_network_type()` on the object is `typeOf` of the address it holds. It is false
because `apply_mask()`, `ip_from_uint128()`, `++`, `--`, `+=` and `-=` do not call `address_changed()`. -/

/-- The claim of C13. -/
def C13_claim : Prop :=
  ∀ ops : List AddrOp, (AddrOp.runAll ops Addr.default).getNetworkType.2
    = typeOf (ip (AddrOp.runAll ops Addr.default).getIpv6.addr)

/-- C13 is false: 10.0.0.0 is asked for its type, then `--` moves to 9.255.255.255, which is still said to be private. -/
theorem C13_claim_fails : ¬ C13_claim := by
  intro h
  have := h [.setIpv4 { family := 2, port := 0, addr := #v[10, 0, 0, 0], zero := Vector.replicate 8 0 }, .askType, .preDec]
  revert this
  decide +kernel

/-- `true` for the operations which move the address without forgetting the cached type. -/
def AddrOp.movesSilently : AddrOp → Bool
  | .applyMask _ | .ipFromUint128 _ | .preInc | .postInc | .preDec | .postDec | .addAssign _ | .subAssign _ => true
  | _ => false

/-- `true` when the operation fills the cache. -/
def AddrOp.asks : AddrOp → Bool
  | .askType => true
  | _ => false

/-- `true` when the operation is a `set_ipv4()`/`set_ipv6()` which succeeds. -/
def AddrOp.setsAddress : AddrOp → Bool
  | .setIpv4 s => s.family == 2
  | .setIpv6 s => s.family == 10
  | .setIpv4Loopback | .setIpv6Loopback => true
  | _ => false

/-- The histories in which no silent move happens once the type was asked and until the address is set again. -/
def asksLast : (asked : Bool) → List AddrOp → Bool
  | _, [] => true
  | asked, op :: ops =>
    !(asked && op.movesSilently) && asksLast (op.asks || (asked && !op.setsAddress)) ops

/-- What the partial theorem keeps true along a history. -/
def CacheOk (asked : Bool) (a : Addr) : Prop := Fresh a ∧ (asked = false → a.privateNetwork = .undefined)

theorem fresh_of_undefined {a : Addr} (h : a.privateNetwork = .undefined) : Fresh a := .inl h

theorem cacheOk_undefined {asked : Bool} {a : Addr} (h : a.privateNetwork = .undefined) : CacheOk asked a := ⟨.inl h, fun _ => h⟩

theorem cacheOk_congr {asked : Bool} {a b : Addr} (h : CacheOk asked a) (h1 : b.privateNetwork = a.privateNetwork)
    (h2 : b.address.addr = a.address.addr) : CacheOk asked b := by
  unfold CacheOk Fresh Addr.getIpv6 at *
  rw [h1, h2]; exact h

theorem setIpv4_cache {asked : Bool} {a : Addr} (s : SockaddrIn) (h : CacheOk asked a) : CacheOk asked (Addr.setIpv4 s a).1 := by
  unfold Addr.setIpv4
  split
  · exact h
  · exact cacheOk_undefined rfl

theorem setIpv6_cache {asked : Bool} {a : Addr} (s : SockaddrIn6) (h : CacheOk asked a) : CacheOk asked (Addr.setIpv6 s a).1 := by
  unfold Addr.setIpv6
  split
  · exact h
  · exact cacheOk_undefined rfl

theorem setType_cache {asked : Bool} {a : Addr} (t : Option (BitVec 32)) (h : CacheOk asked a) :
    CacheOk asked (Addr.setTypeFromSocket t a).1 := by
  unfold Addr.setTypeFromSocket
  repeat' split
  all_goals first | exact h | exact cacheOk_congr h rfl rfl

theorem bind_inv {σ α β : Type} (P : σ → Prop) (m : SM σ α) (f : α → SM σ β) (s : σ)
    (hm : ∀ s, P s → P (m s).1) (hf : ∀ x s, P s → P (f x s).1) (h : P s) : P (SM.bind m f s).1 := by
  have h1 := hm s h
  unfold SM.bind
  split
  · rename_i s' x e; rw [e] at h1; exact hf x s' h1
  · rename_i s' x e; rw [e] at h1; exact h1
  · rename_i s' x e; rw [e] at h1; exact h1

theorem setFromSocket_cache {asked : Bool} {a : Addr} (s : Int) (peer : Bool) (info : SocketInfo) (h : CacheOk asked a) :
    CacheOk asked (Addr.setFromSocket s peer info a).1 := by
  unfold Addr.setFromSocket
  split
  · exact h
  · split
    · exact h
    · exact bind_inv (CacheOk asked) _ _ _ (fun _ h => setIpv4_cache _ h) (fun _ _ h => setType_cache _ h) h
    · exact bind_inv (CacheOk asked) _ _ _ (fun _ h => setIpv6_cache _ h) (fun _ _ h => setType_cache _ h) h
    · exact h

theorem drop_fst {α : Type} (r : Addr × Res α) : (AddrOp.drop r).1 = r.1 := by
  unfold AddrOp.drop
  split <;> rfl

theorem setPort_cache {asked : Bool} {a : Addr} (p : Int) (h : CacheOk asked a) : CacheOk asked (Addr.setPort p a).1 := by
  unfold Addr.setPort
  split
  · exact h
  · exact cacheOk_congr h rfl rfl

theorem setProtocol_cache {asked : Bool} {a : Addr} (p : Int) (h : CacheOk asked a) : CacheOk asked (Addr.setProtocol p a).1 := by
  unfold Addr.setProtocol
  split
  · split
    · exact cacheOk_undefined rfl
    · exact h
  · exact h

theorem setPortStr_fst (c : Option Int) (sv : Option (BitVec 16)) (a : Addr) :
    (Addr.setPortStr c sv a).1 = a ∨ ∃ p, (Addr.setPortStr c sv a).1 = (Addr.setPort p a).1 := by
  unfold Addr.setPortStr
  cases c with
  | some p =>
    right
    refine ⟨Addr.toCInt p, ?_⟩
    dsimp only
    split <;> (rename_i e; rw [e])
  | none =>
    cases sv with
    | none => exact .inl rfl
    | some p =>
      right
      refine ⟨p.toNat, ?_⟩
      dsimp only
      split <;> (rename_i e; rw [e])

theorem addAssign_pn (n : Int) (a : Addr) : (Addr.addAssign n a).1.privateNetwork = a.privateNetwork := by
  unfold Addr.addAssign
  repeat' split
  all_goals rfl

theorem subAssign_pn (n : Int) (a : Addr) : (Addr.subAssign n a).1.privateNetwork = a.privateNetwork := by
  unfold Addr.subAssign
  repeat' split
  all_goals rfl

theorem applyMask_pn (i : Bool) (a : Addr) : (Addr.applyMask i a).privateNetwork = a.privateNetwork := rfl

theorem fromUint_pn (u : BitVec 128) (a : Addr) : (Addr.ipFromUint128 u a).privateNetwork = a.privateNetwork := rfl

/-- One operation keeps `CacheOk`. -/
theorem run_cache (op : AddrOp) (asked : Bool) (a : Addr) (h : CacheOk asked a) (hok : (asked && op.movesSilently) = false) :
    CacheOk (op.asks || (asked && !op.setsAddress)) (op.run a).1 := by
  have silent : ∀ b : Addr, asked = false → b.privateNetwork = a.privateNetwork → CacheOk asked b := by
    intro b hf hb
    have : b.privateNetwork = .undefined := hb.trans (h.2 hf)
    exact ⟨.inl this, fun _ => this⟩
  have weaken : ∀ b : Addr, CacheOk asked b → CacheOk (false || (asked && !false)) b := by
    intro b hb; simpa using hb
  cases op with
  | setInterface s => exact weaken _ (cacheOk_congr h rfl rfl)
  | setHostname s => exact weaken _ (cacheOk_congr h rfl rfl)
  | setFromSocket s peer info => exact weaken _ (setFromSocket_cache s peer info h)
  | setIpv4 s =>
    by_cases hs : s.family = 2
    · have hne : ¬ s.family ≠ AF_INET := fun h => h hs
      simp only [AddrOp.run, Addr.setIpv4, if_neg hne]
      exact cacheOk_undefined rfl
    · have : (AddrOp.setIpv4 s).setsAddress = false := by simpa [AddrOp.setsAddress] using hs
      rw [this]
      exact weaken _ (setIpv4_cache s h)
  | setIpv4Loopback => exact cacheOk_undefined rfl
  | setIpv6 s =>
    by_cases hs : s.family = 10
    · have hne : ¬ s.family ≠ AF_INET6 := fun h => h hs
      simp only [AddrOp.run, Addr.setIpv6, if_neg hne]
      exact cacheOk_undefined rfl
    · have : (AddrOp.setIpv6 s).setsAddress = false := by simpa [AddrOp.setsAddress] using hs
      rw [this]
      exact weaken _ (setIpv6_cache s h)
  | setIpv6Loopback => exact cacheOk_undefined rfl
  | setPortDefined d => exact weaken _ (cacheOk_congr h rfl rfl)
  | setPortStr c sv =>
    refine weaken _ ?_
    simp only [AddrOp.run, drop_fst]
    rcases setPortStr_fst c sv a with e | ⟨p, e⟩
    · rw [e]; exact h
    · rw [e]; exact setPort_cache p h
  | setPort p => exact weaken _ (setPort_cache p h)
  | setProtocolDefined d => exact weaken _ (cacheOk_congr h rfl rfl)
  | setProtocolStr f =>
    refine weaken _ ?_
    simp only [AddrOp.run, Addr.setProtocolStr]
    split
    · exact h
    · exact h
    · exact setProtocol_cache _ h
  | setProtocol p => exact weaken _ (setProtocol_cache p h)
  | setMaskDefined d => exact weaken _ (cacheOk_congr h rfl rfl)
  | setMask m => exact weaken _ (cacheOk_congr h rfl rfl)
  | setMaskCount n =>
    refine weaken _ ?_
    simp only [AddrOp.run, Addr.setMaskCount]
    generalize (if a.isIpv4 = true then (96 : Int) else 0) = m
    split
    · exact h
    · exact cacheOk_congr h rfl rfl
  | askType =>
    have hf : Fresh a.getNetworkType.1 := by
      by_cases hu : a.privateNetwork = .undefined
      · rw [(C12_network_type a hu).2.2]; exact .inr rfl
      · have : a.getNetworkType.1 = a := by simp only [Addr.getNetworkType, if_neg hu]
        rw [this]; exact h.1
    exact ⟨hf, fun h' => by simp [AddrOp.asks] at h'⟩
  | bind s answer info =>
    refine weaken _ ?_
    simp only [AddrOp.run, drop_fst, Addr.bind]
    split
    · split
      · exact bind_inv (CacheOk asked) _ _ _ (fun _ h => setFromSocket_cache _ _ _ h) (fun _ _ h => h) h
      · exact h
    · exact h
    · exact h
  | recvfrom s info answer f4 f6 =>
    refine weaken _ ?_
    simp only [AddrOp.run, drop_fst, Addr.recvfrom]
    refine bind_inv (CacheOk asked) _ _ _ (fun _ h => setFromSocket_cache _ _ _ h) ?_ h
    intro _ b hb
    split
    · exact hb
    · split
      · split
        · exact bind_inv (CacheOk asked) _ _ _ (fun _ h => setIpv4_cache _ h) (fun _ _ h => h) hb
        · exact hb
      · split
        · exact bind_inv (CacheOk asked) _ _ _ (fun _ h => setIpv6_cache _ h) (fun _ _ h => h) hb
        · exact hb
  | applyMask i =>
    exact weaken _ (silent _ (by simpa [AddrOp.movesSilently] using hok) (applyMask_pn ..))
  | ipFromUint128 u =>
    exact weaken _ (silent _ (by simpa [AddrOp.movesSilently] using hok) (fromUint_pn ..))
  | preInc =>
    exact weaken _ (silent _ (by simpa [AddrOp.movesSilently] using hok) (fromUint_pn ..))
  | postInc =>
    exact weaken _ (silent _ (by simpa [AddrOp.movesSilently] using hok) (fromUint_pn ..))
  | preDec =>
    exact weaken _ (silent _ (by simpa [AddrOp.movesSilently] using hok) (fromUint_pn ..))
  | postDec =>
    exact weaken _ (silent _ (by simpa [AddrOp.movesSilently] using hok) (fromUint_pn ..))
  | addAssign n => exact weaken _ (silent _ (by simpa [AddrOp.movesSilently] using hok) (addAssign_pn n a))
  | subAssign n => exact weaken _ (silent _ (by simpa [AddrOp.movesSilently] using hok) (subAssign_pn n a))

theorem runAll_cache (ops : List AddrOp) : ∀ (asked : Bool) (a : Addr), CacheOk asked a → asksLast asked ops = true →
    Fresh (AddrOp.runAll ops a) := by
  induction ops with
  | nil => intro asked a h _; exact h.1
  | cons op ops ih =>
    intro asked a h hok
    simp only [asksLast, Bool.and_eq_true, Bool.not_eq_true'] at hok
    exact ih _ _ (run_cache op asked a h hok.1) hok.2

/-- C13, partial: in every history, of any length and with failing calls, in which the type is not asked before a silent move
of the address (unless the address is set again in between), the type is the one of the current address. Missing: the
histories which ask for the type and then use `apply_mask()`, `ip_from_uint128()`, `++`, `--`, `+=` or `-=`; for these the
claim is false, see `C13_claim_fails`. -/
theorem C13_fresh_type_partial (ops : List AddrOp) (h : asksLast false ops = true) :
    (AddrOp.runAll ops Addr.default).getNetworkType.2 = typeOf (ip (AddrOp.runAll ops Addr.default).getIpv6.addr) :=
  getNetworkType_fresh _ (runAll_cache ops false Addr.default (cacheOk_undefined rfl) h)

example : asksLast false [.setIpv4 { family := 2, port := 0, addr := #v[10, 0, 0, 0], zero := Vector.replicate 8 0 },
    .preDec, .askType, .setPort 70000, .setIpv6Loopback, .addAssign 3, .askType] = true := by decide

/-- `true` for the operations which may give the object an address anew, and for the setters of the protocol, which forget the
cached type when the protocol changes. -/
def AddrOp.mayRenew : AddrOp → Bool
  | .setIpv4 s => s.family == 2
  | .setIpv6 s => s.family == 10
  | .setIpv4Loopback | .setIpv6Loopback | .setFromSocket .. | .bind .. | .recvfrom .. => true
  | .setProtocol _ | .setProtocolStr _ => true
  | _ => false

theorem run_keeps_type (op : AddrOp) (a : Addr) (h : op.mayRenew = false) (hu : a.privateNetwork ≠ .undefined) :
    (op.run a).1.privateNetwork = a.privateNetwork := by
  have hport : ∀ p, (Addr.setPort p a).1.privateNetwork = a.privateNetwork := fun p => by
    simp only [Addr.setPort]
    split <;> rfl
  cases op with
  | setIpv4 s =>
    have hs : s.family ≠ AF_INET := by simpa [AddrOp.mayRenew, AF_INET] using h
    simp only [AddrOp.run, Addr.setIpv4, if_pos hs]
  | setIpv6 s =>
    have hs : s.family ≠ AF_INET6 := by simpa [AddrOp.mayRenew, AF_INET6] using h
    simp only [AddrOp.run, Addr.setIpv6, if_pos hs]
  | setPortStr c sv =>
    simp only [AddrOp.run, drop_fst]
    rcases setPortStr_fst c sv a with e | ⟨p, e⟩
    · rw [e]
    · rw [e]; exact hport p
  | setPort p => exact hport p
  | setMaskCount n =>
    simp only [AddrOp.run, Addr.setMaskCount]
    generalize (if a.isIpv4 = true then (96 : Int) else 0) = m
    split <;> rfl
  | askType => simp only [AddrOp.run, Addr.getNetworkType, if_neg hu]
  | addAssign n => exact addAssign_pn n a
  | subAssign n => exact subAssign_pn n a
  | setIpv4Loopback | setIpv6Loopback | setProtocol | setProtocolStr => cases h
  | setFromSocket | bind | recvfrom => cases h
  | setInterface | setHostname | setPortDefined | setProtocolDefined | setMaskDefined | setMask => rfl
  | applyMask i => exact applyMask_pn i a
  | ipFromUint128 u => exact fromUint_pn u a
  | preInc => exact fromUint_pn _ a
  | postInc => exact fromUint_pn _ a
  | preDec => exact fromUint_pn _ a
  | postDec => exact fromUint_pn _ a

theorem runAll_keeps_type (ops : List AddrOp) : ∀ a : Addr, (∀ op ∈ ops, op.mayRenew = false) → a.privateNetwork ≠ .undefined →
    (AddrOp.runAll ops a).privateNetwork = a.privateNetwork := by
  induction ops with
  | nil => exact fun _ _ _ => rfl
  | cons op ops ih =>
    intro a h hu
    have h1 := run_keeps_type op a (h op List.mem_cons_self) hu
    rw [AddrOp.runAll, ih _ (fun x hx => h x (List.mem_cons_of_mem _ hx)) (by rw [h1]; exact hu), h1]

theorem typeOf_ne (v : Nat) : typeOf v ≠ .undefined := by
  unfold typeOf
  repeat' split
  all_goals exact fun h => nomatch h

/-- C13, what the code does instead: once asked, the type stays the one of the address held at that time, whatever moves the
address, until the object is given an address or a protocol anew. -/
theorem C13_kept_type (a : Addr) (ops : List AddrOp) (h : ∀ op ∈ ops, op.mayRenew = false) :
    (AddrOp.runAll (.askType :: ops) a).getNetworkType.2 = a.getNetworkType.2 := by
  have hne : a.getNetworkType.2 ≠ .undefined := by
    by_cases hu : a.privateNetwork = .undefined
    · rw [(C12_network_type a hu).1]
      exact typeOf_ne _
    · simp only [Addr.getNetworkType, if_neg hu]; exact hu
  have hp : a.getNetworkType.1.privateNetwork = a.getNetworkType.2 := by
    simp only [Addr.getNetworkType]
    split <;> rfl
  have hr : (AddrOp.runAll (.askType :: ops) a).privateNetwork = a.getNetworkType.2 := by
    rw [AddrOp.runAll]
    exact (runAll_keeps_type ops a.getNetworkType.1 h (by rw [hp]; exact hne)).trans hp
  rw [Addr.getNetworkType, if_neg (by rw [hr]; exact hne)]
  exact hr

example : (sampleV4 10 0 0 0).getNetworkType.2 = .priv
    ∧ ∀ op ∈ [AddrOp.preDec, .setPort 70000, .ipFromUint128 5, .askType, .setMaskCount 100], op.mayRenew = false := by decide +kernel

/-! ## C14 -/

/-- C14: how the predicates relate, on any object whose cached type is up to date. -/
theorem C14_predicates (a : Addr) (h : Fresh a) :
    (∀ i j, ¬ (a.isLan i = true ∧ a.isWan j = true))
      ∧ (a.isLan false = true → a.isLan true = true) ∧ (a.isWan false = true → a.isWan true = true)
      ∧ (a.isDefault = true ↔ a.getNetworkType.2 = .any)
      ∧ (a.isDefault = true ↔ isAny (ip a.getIpv6.addr))
      ∧ (a.isValid = false ↔ isDocumentation (ip a.getIpv6.addr))
      ∧ (a.isWan true = true ↔ a.isLan true = false ∧ a.isValid = true)
      ∧ (a.isLan false = true ↔ isPrivate (ip a.getIpv6.addr) ∨ isLoopback (ip a.getIpv6.addr))
      ∧ (a.isLan true = true ↔ isPrivate (ip a.getIpv6.addr) ∨ isLoopback (ip a.getIpv6.addr)
          ∨ isCarrier (ip a.getIpv6.addr) ∨ isLinkLocal (ip a.getIpv6.addr) ∨ isMulticast (ip a.getIpv6.addr))
      ∧ (a.isWan true = true ↔ a.isWan false = true ∨ isAny (ip a.getIpv6.addr)) := by
  have ht : a.getNetworkType.2 = typeOf (ip a.getIpv6.addr) := getNetworkType_fresh a h
  have hd : a.isDefault = true ↔ isAny (ip a.getIpv6.addr) := isDefault_iff a
  obtain ⟨h1, h2, h3, h4, h5, h6, h7, h8, _⟩ := C12_table_disjoint (ip a.getIpv6.addr)
  rw [hd, ← h1, ← h2, ← h3, ← h4, ← h5, ← h6, ← h7]
  simp only [Addr.isLan, Addr.isWan, Addr.isValid, ht]
  cases h : typeOf (ip a.getIpv6.addr) <;> simp_all

example : Fresh (sampleV4 192 168 0 1) ∧ (sampleV4 192 168 0 1).isLan false = true ∧ (sampleV4 8 8 8 8).isWan false = true := by
  decide +kernel

end Verif
