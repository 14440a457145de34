import Verif.Lemmas.Ostream

/-!
# Properties of the stream manipulators

`Spec.streamOps` gives every stream its own settings by value; it is `none` for a program which uses a stream which does not
exist. The theorems are about every other program.
-/

namespace Verif

open Ostream Spec

/-- **C52.** Whatever was done with any number of streams (creation, `setaddrmode()`, `setaddrsep()`, `copyfmt()`, `swap()`,
destruction), no freed block was read, written or freed again; two streams never point to the same block; a stream points
to a live block or to none and every live block belongs to a stream; and a stream has exactly one callback when it has a block and
no callback otherwise. -/
theorem C52_ownership {ops : List Op} {m : Streams} (h : streamOps (fun _ => none) ops = some m) :
    ∃ w, runAll World.init ops = .ok w ∧
      (∀ s, w.streams s = none ↔ m s = none) ∧
      (∀ s t p, Owns w s p → Owns w t p → s = t) ∧
      (∀ p, w.heap p ≠ none ↔ ∃ s, Owns w s p) ∧
      (∀ s st, w.streams s = some st → st.callbacks = if st.pword = none then 0 else 1) := by
  obtain ⟨w, hr, hinv⟩ := ops_inv inv_init h
  refine ⟨w, hr, ?_, hinv.unique, ?_, ?_⟩
  · intro s
    cases hm : m s with
    | none => simp [hinv.dead s hm]
    | some i =>
      obtain ⟨st, hs, _⟩ := hinv.alive s i hm
      simp [hs]
  · intro p
    constructor
    · exact hinv.owned p
    · rintro ⟨s, hs⟩
      obtain ⟨i, _, hh⟩ := hinv.live hs
      rw [hh]
      exact fun h => nomatch h
  · intro s st hs
    cases hm : m s with
    | none =>
      rw [hinv.dead s hm] at hs
      cases hs
    | some i =>
      obtain ⟨st', hs', ha⟩ := hinv.alive s i hm
      rw [hs] at hs'
      cases hs'
      rcases ha with ⟨h0, hc, _⟩ | ⟨q, hq, hc, _⟩
      · rw [hc, if_pos h0]
      · rw [hc, if_neg (by rw [hq]; exact fun h => nomatch h)]

/-- **C52.** When every stream is gone nothing is left allocated. -/
theorem C52_no_leak {ops : List Op} {m : Streams} (h : streamOps (fun _ => none) ops = some m) (hnone : ∀ s, m s = none) :
    ∃ w, runAll World.init ops = .ok w ∧ ∀ p, w.heap p = none := by
  obtain ⟨w, hr, hinv⟩ := ops_inv inv_init h
  refine ⟨w, hr, fun p => ?_⟩
  cases hp : w.heap p with
  | none => rfl
  | some i =>
    obtain ⟨s, st, hs, _⟩ := hinv.owned p (by rw [hp]; exact fun h => nomatch h)
    rw [hinv.dead s (hnone s)] at hs
    cases hs

/-- **C52.** An address is written with the mode last given to that stream or copied to it. -/
theorem C52_print {ops : List Op} {m : Streams} (h : streamOps (fun _ => none) ops = some m) {s : Nat} {mode : BitVec 32} {sep : Str}
    (hm : m s = some (mode, sep)) (db : NetDb) (a : Addr) :
    ∃ w, runAll World.init ops = .ok w ∧ printAddr db w s a = a.toIpv4or6String db mode := by
  obtain ⟨w, hr, hinv⟩ := ops_inv inv_init h
  exact ⟨w, hr, by rw [printAddr, info_of_inv hinv hm, Res.bind_ok]⟩

/-- **C52.** The addresses of a vector or set are written with the mode of that stream, with its separator between two of them and
nowhere else. -/
theorem C52_print_list {ops : List Op} {m : Streams} (h : streamOps (fun _ => none) ops = some m) {s : Nat} {mode : BitVec 32}
    {sep : Str} (hm : m s = some (mode, sep)) (db : NetDb) {l : List Addr} {ts : List Str}
    (hts : List.Forall₂ (fun a t => a.toIpv4or6String db mode = .ok t) l ts) :
    ∃ w, runAll World.init ops = .ok w ∧ printAddrs db w s l = .ok (sep.intercalate ts) := by
  obtain ⟨w, hr, hinv⟩ := ops_inv inv_init h
  have hi := info_of_inv hinv hm
  refine ⟨w, hr, ?_⟩
  rw [printAddrs, hi, Res.bind_ok, printLoop_of_info hi sep hts true]
  rfl

/-- **C52.** A range is written with the mode of that stream. -/
theorem C52_print_range {ops : List Op} {m : Streams} (h : streamOps (fun _ => none) ops = some m) {s : Nat} {mode : BitVec 32}
    {sep : Str} (hm : m s = some (mode, sep)) (db : NetDb) (r : Range) :
    ∃ w, runAll World.init ops = .ok w ∧ printRange db w s r = r.toStr db mode := by
  obtain ⟨w, hr, hinv⟩ := ops_inv inv_init h
  exact ⟨w, hr, by rw [printRange, info_of_inv hinv hm, Res.bind_ok]⟩

/-- **C52.** The ranges of a vector are written with the mode of that stream, with its separator between two of them and nowhere
else. -/
theorem C52_print_ranges {ops : List Op} {m : Streams} (h : streamOps (fun _ => none) ops = some m) {s : Nat} {mode : BitVec 32}
    {sep : Str} (hm : m s = some (mode, sep)) (db : NetDb) {l : List Range} {ts : List Str}
    (hts : List.Forall₂ (fun r t => r.toStr db mode = .ok t) l ts) :
    ∃ w, runAll World.init ops = .ok w ∧ printRanges db w s l = .ok (sep.intercalate ts) := by
  obtain ⟨w, hr, hinv⟩ := ops_inv inv_init h
  refine ⟨w, hr, ?_⟩
  rw [printRanges, info_of_inv hinv hm, Res.bind_ok]
  exact toStrAll_of sep hts true

/-- Two streams, one of which takes the settings of the other twice; the first is changed again, then destroyed. -/
def streamSample : List Op :=
  [.create 0, .create 1, .setMode 0 STRING_IP_ADDRESS, .copyfmt 1 0, .setSep 0 [';'], .setSep 1 [' '], .copyfmt 1 0, .copyfmt 1 1,
    .setMode 0 STRING_IP_PORT, .create 2, .swap 1 2, .copyfmt 0 1, .destroy 0]

-- The hypotheses of the theorems are met by this history: the streams 1 and 2 remain.
example : ((streamOps (fun _ => none) streamSample).map fun m => (m 0, m 1, m 2)) =
    some (none, some (STRING_IP_ALL, [',']), some (STRING_IP_ADDRESS, [';'])) := by decide +kernel

example : ∃ m, streamOps (fun _ => none) (streamSample ++ [.destroy 2, .destroy 1]) = some m ∧ ∀ s, m s = none := by
  refine ⟨_, rfl, fun s => ?_⟩
  simp only
  repeat' split
  all_goals rfl

/-- A program which uses a stream after its end is the only one excluded: the model then reports undefined behaviour. -/
example : streamOps (fun _ => none) [.create 0, .destroy 0, .setMode 0 STRING_IP_ALL] = none := rfl

example : runAll World.init [.create 0, .destroy 0, .setMode 0 STRING_IP_ALL] = .ub .danglingPointer := rfl

end Verif
