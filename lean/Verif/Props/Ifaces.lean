import Verif.Lemmas.ToolWords
import Verif.Props.AddrNet
import Verif.Props.IfaceList
import Verif.Props.ValidateIp

/-!
# C75: what `ifaces` prints
-/

namespace Verif

open Spec Tools Route

/-! ### The loop -/

/-- The interfaces which are kept. -/
def kept (env : IfacesEnv) (o : IfacesOptions) (d : Str) (l : List Iface) : List Iface := l.filter (keeps env o d)

/-- The columns of a line, for any interface. -/
theorem line_row (db : NetDb) (o : IfacesOptions) (i : Iface) :
    ∃ s, ifacesLine db o i = .ok (s ++ ['\n']) ∧ ('\n' ∉ i.name → '\n' ∉ s)
      ∧ (IsWord i.name → IfaceColumns o i (wordsOf s)) := by
  obtain ⟨a, a1, a2, a3, a4, -⟩ := address_word db i.address
  obtain ⟨b, b1, b2, b3, b4⟩ := optional_word db o i.address i.broadcast
  obtain ⟨d, d1, d2, d3, d4⟩ := optional_word db o i.address i.destination
  have hf := dec_word i.flags.toNat
  refine ⟨[(17, i.name), (6, dec i.flags.toNat), (41, a), (41, b), (41, d)].flatMap fun x => setw x.1 x.2, ?_, ?_, ?_⟩
  · rw [ifacesLine, a1, Res.bind_ok, b1, Res.bind_ok, d1, Res.bind_ok, decStr_dec]
    simp
  · intro hn
    refine columns_newline _ ?_
    intro x hx
    simp only [List.mem_cons, List.not_mem_nil, or_false] at hx
    rcases hx with rfl | rfl | rfl | rfl | rfl
    · exact hn
    · exact hf.2.2
    · exact a3.2.2
    · exact b3.2.2
    · exact d3.2.2
  · intro hn
    refine ⟨a, b, d, a2, b2, d2, a4, b4, words_together _ ?_⟩
    intro x hx
    simp only [List.mem_cons, List.not_mem_nil, or_false] at hx
    rcases hx with rfl | rfl | rfl | rfl | rfl
    · exact ⟨hn.1, hn.2.1⟩
    · exact ⟨hf.1, hf.2.1⟩
    · exact ⟨a3.1, a3.2.1⟩
    · exact ⟨b3.1, b3.2.1⟩
    · exact ⟨d3.1, d3.2.1⟩

theorem loop_lines (env : IfacesEnv) (o : IfacesOptions) (d : Str) (hn : o.nameOnly = false) (found : List Str) (l : List Iface) :
    ∃ lines, Writes (ifacesLoop env o d l found) { out := lines.flatMap (· ++ ['\n']), err := [] } (.ok ())
      ∧ List.Forall₂ (fun i s => ifacesLine env.db o i = .ok (s ++ ['\n']) ∧ ('\n' ∉ i.name → '\n' ∉ s)
        ∧ (IsWord i.name → IfaceColumns o i (wordsOf s))) (kept env o d l) lines := by
  induction l with
  | nil => exact ⟨[], writes_pure (), .nil⟩
  | cons i l ih =>
    obtain ⟨lines, h1, h2⟩ := ih
    rw [ifacesLoop]
    by_cases hk : keeps env o d i = true
    · obtain ⟨s, s1, s2⟩ := line_row env.db o i
      refine ⟨s :: lines, ?_, ?_⟩
      · rw [if_neg (by rw [hk]; decide), if_neg (by rw [hn]; decide), s1, List.flatMap_cons]
        exact writes_bind (writes_lift (Res.ok (s ++ ['\n'])))
          (f := fun s => SM.bind (print s) fun _ => ifacesLoop env o d l found)
          (writes_bind (writes_print (s ++ ['\n'])) (f := fun _ => ifacesLoop env o d l found) h1)
      · rw [kept, List.filter_cons_of_pos hk]
        exact .cons ⟨s1, s2⟩ h2
    · refine ⟨lines, ?_, ?_⟩
      · rw [if_pos (by rw [Bool.not_eq_true] at hk; rw [hk]; rfl)]
        exact h1
      · rw [kept, List.filter_cons_of_neg hk]
        exact h2

theorem loop_names (env : IfacesEnv) (o : IfacesOptions) (d : Str) (hn : o.nameOnly = true) (l : List Iface) : ∀ found : List Str,
    Writes (ifacesLoop env o d l found)
      { out := ((((kept env o d l).map (·.name)).filter (· ∉ found)).eraseDups).flatMap (· ++ ['\n']), err := [] } (.ok ()) := by
  induction l with
  | nil => exact fun _ => writes_pure ()
  | cons i l ih =>
    intro found
    rw [ifacesLoop]
    by_cases hk : keeps env o d i = true
    · rw [if_neg (by rw [hk]; decide), if_pos hn, kept, List.filter_cons_of_pos hk, List.map_cons]
      by_cases hf : i.name ∈ found
      · rw [if_pos hf, List.filter_cons_of_neg (by simpa using hf)]
        exact ih found
      · rw [if_neg hf, List.filter_cons_of_pos (by simpa using hf), List.eraseDups_cons, List.flatMap_cons]
        have h := ih (i.name :: found)
        have e : (((kept env o d l).map (·.name)).filter (· ∉ i.name :: found))
            = ((((kept env o d l).map (·.name)).filter (· ∉ found)).filter fun b => !b == i.name) := by
          rw [List.filter_filter]
          refine List.filter_congr fun x _ => ?_
          by_cases h1 : x = i.name <;> by_cases h2 : x ∈ found <;> simp [h1, h2]
        rw [e] at h
        exact writes_bind (writes_print (i.name ++ ['\n'])) (f := fun _ => ifacesLoop env o d l (i.name :: found)) h
    · rw [if_pos (by rw [Bool.not_eq_true] at hk; rw [hk]; rfl), kept, List.filter_cons_of_neg hk]
      exact ih found

/-! ### The filters -/

/-- The interfaces chosen by the filters which look at the address only. -/
theorem keeps_chosen (env : IfacesEnv) (o : IfacesOptions) (d : Str) (i : Iface) (h : i.address.privateNetwork = .undefined)
    (ho : o.filter ≠ .default) : keeps env o d i = true ↔ Chosen o.filter (ip i.address.getIpv6.addr) := by
  have ht := (C12_network_type i.address h).1
  obtain ⟨t1, t2, t3, t4, t5, t6, t7, t8, t9⟩ := C12_table_disjoint (ip i.address.getIpv6.addr)
  rw [keeps]
  cases hf : o.filter with
  | all => simp [Chosen]
  | pub => simp only [Chosen, decide_eq_true_eq]; rw [ht]; exact t9
  | priv => simp only [Chosen, decide_eq_true_eq]; rw [ht]; exact t1
  | loopback => simp only [Chosen, decide_eq_true_eq]; rw [ht]; exact t5
  | default => exact absurd hf ho

/-- The text of the first line. -/
def titleLine (o : IfacesOptions) : List Str := if o.hideHeaders then [] else [ifacesHeaders.dropLast]

theorem title_written (o : IfacesOptions) (hn : o.nameOnly = false) :
    Writes (if !o.hideHeaders && !o.nameOnly then print ifacesHeaders else SM.pure ())
      { out := (titleLine o).flatMap (· ++ ['\n']), err := [] } (.ok ()) := by
  rw [hn, titleLine]
  cases o.hideHeaders with
  | true => exact writes_pure ()
  | false =>
    rw [if_pos (by decide), if_neg (by decide)]
    have e : ifacesHeaders = [ifacesHeaders.dropLast].flatMap (· ++ ['\n']) := by decide +kernel
    have := writes_print ifacesHeaders
    rw [← e]
    exact this

theorem title_row : wordsOf ifacesHeaders.dropLast = ifacesTitles ∧ '\n' ∉ ifacesHeaders.dropLast := by
  have e : ifacesHeaders.dropLast = [(17, "Iface".toList), (6, "Flags".toList), (41, "Address".toList), (41, "Broadcast".toList),
    (41, "Destination".toList)].flatMap fun x => setw x.1 x.2 := by decide +kernel
  rw [e]
  exact ⟨by rw [words_columns _ (by decide +kernel)]; rfl, columns_newline _ (by decide +kernel)⟩

/-! ### The run -/

/-- The run after the interfaces and the default interface are known. -/
def afterSearch (env : IfacesEnv) (o : IfacesOptions) (d : Str) (l : List Iface) : SM Output Int :=
  SM.bind (if !o.hideHeaders && !o.nameOnly then print ifacesHeaders else SM.pure ()) fun _ =>
    SM.bind (ifacesLoop env o d l []) fun _ => SM.pure 0

theorem run_plain {env : IfacesEnv} {o : IfacesOptions} {l : List Iface} (henv : env.interfaces = some l) (hl : l ≠ [])
    (ho : o.filter ≠ .default) : ifacesRun env o = afterSearch env o [] l := by
  rw [ifacesRun, henv]
  cases l with
  | nil => exact absurd rfl hl
  | cons i l =>
    dsimp only
    rw [if_neg (c := o.filter = .default) ho]
    rfl

theorem run_default {env : IfacesEnv} {o : IfacesOptions} {l : List Iface} {routes : List Route} (henv : env.interfaces = some l)
    (hl : l ≠ []) (ho : o.filter = .default) (hr : Route.getIpv4Routes env.routes = .ok routes) (hne : routes ≠ []) :
    ifacesRun env o = afterSearch env o (defaultInterface routes []) l := by
  rw [ifacesRun, henv]
  cases l with
  | nil => exact absurd rfl hl
  | cons i l =>
    dsimp only
    rw [if_pos (c := o.filter = .default) ho, hr]
    funext w
    rw [afterSearch, SM.bind, SM.bind]
    split
    · show SM.bind (lift (Res.ok routes)) _ _ = _
      rw [SM.bind, lift]
      dsimp only
      rw [if_neg hne]
    · rfl
    · rfl

theorem run_lines (env : IfacesEnv) (o : IfacesOptions) (d : Str) (l : List Iface) (hn : o.nameOnly = false)
    (hfit : ∀ i ∈ kept env o d l, IsWord i.name) :
    ∃ w rows, afterSearch env o d l .empty = (w, .ok 0) ∧ w.err = []
      ∧ (outputLines w.out).map wordsOf = (if o.hideHeaders then [] else [ifacesTitles]) ++ rows
      ∧ List.Forall₂ (IfaceColumns o) (kept env o d l) rows := by
  obtain ⟨lines, h1, h2⟩ := loop_lines env o d hn [] l
  have hrun : afterSearch env o d l .empty = ({ out := (titleLine o ++ lines).flatMap (· ++ ['\n']), err := [] }, .ok 0) := by
    have hw := writes_bind (title_written o hn) (f := fun _ => SM.bind (ifacesLoop env o d l []) fun _ => SM.pure 0)
      (writes_bind h1 (f := fun _ => SM.pure (0 : Int)) (writes_pure 0))
    rw [afterSearch, hw]
    simp [Output.empty]
  generalize kept env o d l = ks at h2 hfit
  have hnl : ∀ s ∈ titleLine o ++ lines, '\n' ∉ s := by
    intro s hs
    rcases List.mem_append.1 hs with hs' | hs'
    · rw [titleLine] at hs'
      split at hs'
      · cases hs'
      · rw [List.mem_singleton.1 hs']
        exact title_row.2
    · clear hrun h1 hs
      induction h2 with
      | nil => cases hs'
      | cons hx _ ih =>
        rcases List.mem_cons.1 hs' with rfl | hs'
        · exact hx.2.1 (hfit _ List.mem_cons_self).2.2
        · exact ih (fun i hi => hfit i (List.mem_cons_of_mem _ hi)) hs'
  refine ⟨_, lines.map wordsOf, hrun, rfl, ?_, ?_⟩
  · rw [lines_written _ hnl, List.map_append, titleLine]
    split
    · rfl
    · rw [List.map_singleton, title_row.1]
  · clear hnl hrun h1
    induction h2 with
    | nil => exact .nil
    | cons hx _ ih =>
      exact .cons (hx.2.2 (hfit _ List.mem_cons_self)) (ih fun i hi => hfit i (List.mem_cons_of_mem _ hi))

/-- The line of an interface has the five words exactly when the name and the flags leave a blank. -/
theorem ifaceColumns_row {o : IfacesOptions} {i : Iface} {ws : List Str} (h : IfaceColumns o i ws) :
    IfaceRow o i ws ↔ i.name.length < 17 ∧ i.flags.toNat < 100000 := by
  have hd : (dec i.flags.toNat).length < 6 ↔ i.flags.toNat < 100000 := by
    have := Nat.length_toDigits_le_iff (b := 10) (n := i.flags.toNat) (k := 5) (by omega) (by omega)
    rw [Nat.lt_succ_iff]
    exact this
  obtain ⟨a, b, d, h1, h2, h3, ha, hb, rfl⟩ := h
  constructor
  · rintro ⟨a', b', d', -, -, -, e⟩
    have hl := (together_iff _).1 (congrArg List.length e)
    exact ⟨hl (17, i.name) (by simp), hd.1 (hl (6, dec i.flags.toNat) (by simp))⟩
  · rintro ⟨h4, h5⟩
    refine ⟨a, b, d, h1, h2, h3, ?_⟩
    rw [together_fits]
    · rfl
    · intro x hx
      simp only [List.dropLast_cons_cons, List.dropLast_singleton, List.mem_cons, List.not_mem_nil, or_false] at hx
      rcases hx with rfl | rfl | rfl | rfl
      · exact h4
      · exact hd.2 h5
      · exact ha
      · exact hb

theorem run_rows (env : IfacesEnv) (o : IfacesOptions) (d : Str) (l : List Iface) (hn : o.nameOnly = false)
    (hfit : ∀ i ∈ kept env o d l, IsWord i.name ∧ i.name.length < 17 ∧ i.flags.toNat < 100000) :
    ∃ w rows, afterSearch env o d l .empty = (w, .ok 0) ∧ w.err = []
      ∧ (outputLines w.out).map wordsOf = (if o.hideHeaders then [] else [ifacesTitles]) ++ rows
      ∧ List.Forall₂ (IfaceRow o) (kept env o d l) rows := by
  obtain ⟨w, rows, h1, h2, h3, h4⟩ := run_lines env o d l hn fun i hi => (hfit i hi).1
  refine ⟨w, rows, h1, h2, h3, ?_⟩
  clear h1 h3
  generalize kept env o d l = ks at h4 hfit
  induction h4 with
  | nil => exact .nil
  | cons hx _ ih =>
    exact .cons ((ifaceColumns_row hx).2 (hfit _ List.mem_cons_self).2) (ih fun i hi => hfit i (List.mem_cons_of_mem _ hi))

theorem run_names (env : IfacesEnv) (o : IfacesOptions) (d : Str) (l : List Iface) (hn : o.nameOnly = true) :
    afterSearch env o d l .empty
      = ({ out := (((kept env o d l).map (·.name)).eraseDups).flatMap (· ++ ['\n']), err := [] }, .ok 0) := by
  have h1 := loop_names env o d hn l []
  rw [List.filter_eq_self.2 (by simp)] at h1
  have hw := writes_bind (writes_pure ()) (f := fun _ => SM.bind (ifacesLoop env o d l []) fun _ => SM.pure 0)
    (writes_bind h1 (f := fun _ => SM.pure (0 : Int)) (writes_pure 0))
  rw [afterSearch, hn, if_neg (by simp), hw]
  simp [Output.empty]

theorem kept_chosen (env : IfacesEnv) (o : IfacesOptions) (d : Str) (l : List Iface) [DecidablePred (Chosen o.filter)]
    (hnew : ∀ i ∈ l, i.address.privateNetwork = .undefined) (ho : o.filter ≠ .default) :
    kept env o d l = l.filter fun i => Chosen o.filter (ip i.address.getIpv6.addr) := by
  refine List.filter_congr fun i hi => ?_
  rw [Bool.eq_iff_iff, keeps_chosen env o d i (hnew i hi) ho, decide_eq_true_eq]

/-- The interface of the last default route. -/
theorem defaultInterface_last {rs : List (KernelRoute × Nat)} {routes : List Route}
    (h : List.Forall₂ (fun k r => Decodes k.1 r) rs routes) : ∀ found,
    defaultInterface routes found = ((rs.filter fun k => k.1.destination = #v[0, 0, 0, 0]).getLast?.map fun k => k.1.iface).getD found := by
  induction h with
  | nil => exact fun _ => rfl
  | @cons k r rs routes hkr _ ih =>
    intro found
    rw [defaultInterface, ih]
    by_cases hd : k.1.destination = #v[0, 0, 0, 0]
    · rw [List.filter_cons_of_pos (by simpa using hd), if_pos ((decodes_default hkr).2 hd), hkr.name, List.getLast?_cons]
      cases (rs.filter fun k => k.1.destination = #v[0, 0, 0, 0]).getLast? <;> rfl
    · rw [List.filter_cons_of_neg (by simpa using hd), if_neg (fun h => hd ((decodes_default hkr).1 h))]

/-! ### The interfaces which the library lists -/

theorem bind_result {α β : Type} {x : Res α} {f : α → Res β} {b : β} (h : x >>= f = .ok b) : ∃ a, x = .ok a ∧ f a = .ok b := by
  cases x with
  | ok a => exact ⟨a, rfl, h⟩
  | throw e => cases h
  | ub w => cases h

theorem set4_new (s : SockaddrIn) (a : Addr) (h : Iface.addrOf (Addr.setIpv4 s Addr.default) = .ok a) :
    a.privateNetwork = .undefined := by
  unfold Addr.setIpv4 at h
  split at h
  · cases h
  · cases h; rfl

theorem set6_new (s : SockaddrIn6) (a : Addr) (h : Iface.addrOf (Addr.setIpv6 s Addr.default) = .ok a) :
    a.privateNetwork = .undefined := by
  unfold Addr.setIpv6 at h
  split at h
  · cases h
  · cases h; rfl

theorem entry_new {e : IfAddrs} {i : Iface} (h : Iface.ofEntry e = .ok (some i)) : i.address.privateNetwork = .undefined := by
  unfold Iface.ofEntry at h
  split at h
  · cases h
  · split at h
    · obtain ⟨a, h1, h⟩ := bind_result h
      obtain ⟨b, -, h⟩ := bind_result h
      obtain ⟨c, -, h⟩ := bind_result h
      cases h
      have := set4_new _ _ h1
      dsimp only
      split <;> exact this
    · split at h
      · obtain ⟨a, h1, h⟩ := bind_result h
        obtain ⟨b, -, h⟩ := bind_result h
        obtain ⟨c, -, h⟩ := bind_result h
        cases h
        have := set6_new _ _ h1
        dsimp only
        split <;> exact this
      · cases h

/-! ## C75 -/

/-- **C75**: the kind of the addresses of the interfaces is not yet known when the library lists them, which is what the theorems
below suppose. -/
theorem C75_new_interfaces (es : List IfAddrs) : ∀ l, Iface.ofEntries es = .ok l → ∀ i ∈ l, i.address.privateNetwork = .undefined := by
  induction es with
  | nil => intro l h; cases h; exact fun _ h => nomatch h
  | cons e es ih =>
    intro l h
    rw [Iface.ofEntries] at h
    obtain ⟨x, h1, h⟩ := bind_result h
    obtain ⟨r, h2, h⟩ := bind_result h
    cases h
    cases x with
    | none => exact ih r h2
    | some j =>
      intro i hi
      rcases List.mem_cons.1 hi with rfl | hi
      · exact entry_new h1
      · exact ih r h2 i hi

/-- C75 at full strength: `--default` shows the interfaces which have a default route. -/
def C75_claim : Prop :=
  ∀ (env : IfacesEnv) (l : List Iface) (pad : Nat) (rs : List (KernelRoute × Nat)), env.interfaces = some l → l ≠ [] → rs ≠ [] →
    (∀ r ∈ rs, KernelRouteOk r.1 ∧ r.1.flags.toNat < 0xA000) → env.routes = routeTable pad rs →
    (∀ i ∈ l, i.address.privateNetwork = .undefined ∧ IsWord i.name) →
    ∃ w, ifacesMain env ["--default".toList, "--name-only".toList] = (w, .ok 0)
      ∧ ∀ n, n ∈ outputLines w.out ↔ ∃ i ∈ l, i.name = n ∧ ∃ k ∈ rs, k.1.destination = #v[0, 0, 0, 0] ∧ k.1.iface = n

/-- **C75**: without `--default` and `--name-only`, the tool succeeds and writes one line per interface of the kind asked for,
in the order of the system and no other, under a line of titles unless it is hidden; the words of a line are the name, the
flags and the three addresses, where the name and the flags leave a blank in their columns. -/
theorem C75_lines_partial (env : IfacesEnv) (o : IfacesOptions) (l : List Iface) (henv : env.interfaces = some l) (hl : l ≠ [])
    (hnew : ∀ i ∈ l, i.address.privateNetwork = .undefined) (ho : o.filter ≠ .default) (hn : o.nameOnly = false)
    [DecidablePred (Chosen o.filter)]
    (hfit : ∀ i ∈ l, Chosen o.filter (ip i.address.getIpv6.addr) → IsWord i.name ∧ i.name.length < 17 ∧ i.flags.toNat < 100000) :
    ∃ w rows, ifacesRun env o .empty = (w, .ok 0) ∧ w.err = []
      ∧ (outputLines w.out).map wordsOf = (if o.hideHeaders then [] else [ifacesTitles]) ++ rows
      ∧ List.Forall₂ (IfaceRow o) (l.filter fun i => Chosen o.filter (ip i.address.getIpv6.addr)) rows := by
  rw [run_plain henv hl ho, ← kept_chosen env o [] l hnew ho]
  refine run_rows env o [] l hn fun i hi => ?_
  rw [kept_chosen env o [] l hnew ho, List.mem_filter, decide_eq_true_eq] at hi
  exact hfit i hi.1 hi.2

/-- **C75**: the words of the lines for all flags and names, and that a line is the five words of its interface exactly when the
name has less than 17 characters and the flags less than six digits. -/
theorem C75_lines_exact (env : IfacesEnv) (o : IfacesOptions) (l : List Iface) (henv : env.interfaces = some l) (hl : l ≠ [])
    (hnew : ∀ i ∈ l, i.address.privateNetwork = .undefined) (ho : o.filter ≠ .default) (hn : o.nameOnly = false)
    [DecidablePred (Chosen o.filter)]
    (hname : ∀ i ∈ l, Chosen o.filter (ip i.address.getIpv6.addr) → IsWord i.name) :
    ∃ w rows, ifacesRun env o .empty = (w, .ok 0) ∧ w.err = []
      ∧ (outputLines w.out).map wordsOf = (if o.hideHeaders then [] else [ifacesTitles]) ++ rows
      ∧ List.Forall₂ (fun i row => IfaceColumns o i row ∧ (IfaceRow o i row ↔ i.name.length < 17 ∧ i.flags.toNat < 100000))
        (l.filter fun i => Chosen o.filter (ip i.address.getIpv6.addr)) rows := by
  obtain ⟨w, rows, h1, h2, h3, h4⟩ := run_lines env o [] l hn fun i hi => by
    rw [kept_chosen env o [] l hnew ho, List.mem_filter, decide_eq_true_eq] at hi
    exact hname i hi.1 hi.2
  rw [kept_chosen env o [] l hnew ho] at h4
  exact ⟨w, rows, by rw [run_plain henv hl ho]; exact h1, h2, h3, h4.imp fun i row h => ⟨h, ifaceColumns_row h⟩⟩

/-- **C75**: with `--name-only`, the tool writes the names of the interfaces of the kind asked for, each of them once, in the
order of the first time they appear. -/
theorem C75_names (env : IfacesEnv) (o : IfacesOptions) (l : List Iface) (henv : env.interfaces = some l) (hl : l ≠ [])
    (hnew : ∀ i ∈ l, i.address.privateNetwork = .undefined) (ho : o.filter ≠ .default) (hn : o.nameOnly = true)
    [DecidablePred (Chosen o.filter)] :
    ifacesRun env o .empty
      = ({ out := (((l.filter fun i => Chosen o.filter (ip i.address.getIpv6.addr)).map (·.name)).eraseDups).flatMap (· ++ ['\n'])
           err := [] }, .ok 0) := by
  rw [run_plain henv hl ho, run_names env o [] l hn, kept_chosen env o [] l hnew ho]

/-- **C75**: with `--default` the tool shows the interfaces of which the *host name of the address* is the name of the interface
of the last default route (the empty name when there is none). -/
theorem C75_default_exact (env : IfacesEnv) (o : IfacesOptions) (l : List Iface) (henv : env.interfaces = some l) (hl : l ≠ [])
    (ho : o.filter = .default) (pad : Nat) (rs : List (KernelRoute × Nat)) (hrs : rs ≠ [])
    (hok : ∀ r ∈ rs, KernelRouteOk r.1 ∧ r.1.flags.toNat < 0xA000) (hfile : env.routes = routeTable pad rs) :
    let d := ((rs.filter fun k => k.1.destination = #v[0, 0, 0, 0]).getLast?.map fun k => k.1.iface).getD []
    let shown := l.filter fun i => env.nameOf i.address = d
    (o.nameOnly = true → ifacesRun env o .empty = ({ out := ((shown.map (·.name)).eraseDups).flatMap (· ++ ['\n']), err := [] }, .ok 0))
      ∧ (o.nameOnly = false → (∀ i ∈ shown, IsWord i.name ∧ i.name.length < 17 ∧ i.flags.toNat < 100000) →
        ∃ w rows, ifacesRun env o .empty = (w, .ok 0) ∧ w.err = []
          ∧ (outputLines w.out).map wordsOf = (if o.hideHeaders then [] else [ifacesTitles]) ++ rows
          ∧ List.Forall₂ (IfaceRow o) shown rows) := by
  obtain ⟨routes, hr, hd⟩ := C53_table pad rs hok
  have hne : routes ≠ [] := by
    intro h
    rw [h] at hd
    cases hd
    exact hrs rfl
  have hd' := defaultInterface_last hd []
  dsimp only
  rw [← hd', run_default henv hl ho (by rw [hfile]; exact hr) hne]
  have hk : (l.filter fun i => env.nameOf i.address = defaultInterface routes []) = kept env o (defaultInterface routes []) l := by
    rw [kept]
    refine List.filter_congr fun i _ => ?_
    rw [keeps, ho]
  rw [hk]
  exact ⟨fun hn => run_names env o _ l hn, fun hn hfit => run_rows env o _ l hn hfit⟩

/-! ### The command line and the exit status -/

theorem args_step (a : Str) (ha : a ∈ ifacesFlags) (o : IfacesOptions) (rest : List Str) :
    ifacesArgs (a :: rest) o = ifacesArgs rest
      { filter := (filterOf a).getD o.filter
        hideHeaders := o.hideHeaders || decide (a = "--hide-headers".toList)
        asterisk := o.asterisk || decide (a = "--asterisk".toList)
        nameOnly := o.nameOnly || decide (a = "--name-only".toList) } := by
  simp only [ifacesFlags, List.map_cons, List.map_nil, List.mem_cons, List.not_mem_nil, or_false] at ha
  obtain ⟨f, h, s, n⟩ := o
  rcases ha with rfl | rfl | rfl | rfl | rfl | rfl | rfl | rfl
  all_goals
    rw [ifacesArgs]
    simp only [String.toList_inj, String.reduceEq, or_self, if_false, if_true, filterOf, or_true, or_false,
      decide_true, decide_false, Bool.or_true, Bool.or_false, Option.getD_some, Option.getD_none]

theorem args_flags : ∀ (args : List Str) (o : IfacesOptions), (∀ a ∈ args, a ∈ ifacesFlags) → ∀ rest,
    ifacesArgs (args ++ rest) o = ifacesArgs rest
      { filter := (args.filterMap filterOf).getLast?.getD o.filter
        hideHeaders := o.hideHeaders || decide ("--hide-headers".toList ∈ args)
        asterisk := o.asterisk || decide ("--asterisk".toList ∈ args)
        nameOnly := o.nameOnly || decide ("--name-only".toList ∈ args) } := by
  intro args
  induction args with
  | nil => intro o _ rest; simp
  | cons a args ih =>
    intro o h rest
    have hd : ∀ (b : Bool) (s : Str), ((b || decide (a = s)) || decide (s ∈ args)) = (b || decide (s ∈ a :: args)) := by
      intro b s
      rw [Bool.or_assoc, ← Bool.decide_or]
      congr 1
      rw [decide_eq_decide, List.mem_cons, eq_comm]
    rw [List.cons_append, args_step a (h a List.mem_cons_self), ih _ (fun x hx => h x (List.mem_cons_of_mem _ hx)) rest]
    dsimp only
    rw [hd, hd, hd]
    congr 2
    rw [List.filterMap_cons]
    cases filterOf a with
    | none => rfl
    | some f =>
      dsimp only
      rw [List.getLast?_cons, Option.getD_some]
      cases (args.filterMap filterOf).getLast? <;> rfl

theorem flag_iff (P : Prop) [Decidable P] : (false || decide P) = true ↔ P := by simp

/-- **C75**: the options which do not end the tool: the last one which chooses the interfaces counts. -/
theorem C75_options (env : IfacesEnv) (args : List Str) (h : ∀ a ∈ args, a ∈ ifacesFlags) :
    ∃ o, ifacesMain env args = ifacesRun env o .empty
      ∧ o.filter = (args.filterMap filterOf).getLast?.getD .all
      ∧ (o.hideHeaders = true ↔ "--hide-headers".toList ∈ args)
      ∧ (o.asterisk = true ↔ "--asterisk".toList ∈ args)
      ∧ (o.nameOnly = true ↔ "--name-only".toList ∈ args) := by
  have := args_flags args {} h []
  rw [List.append_nil, ifacesArgs] at this
  rw [ifacesMain, this]
  refine ⟨_, rfl, rfl, ?_, ?_, ?_⟩ <;> exact flag_iff _

/-- **C75**: an unknown option is refused with a message, whatever comes after it; nothing is listed. -/
theorem C75_unknown_option (env : IfacesEnv) (pre post : List Str) (a : Str) (hpre : ∀ x ∈ pre, x ∈ ifacesFlags) (h1 : a ∉ ifacesFlags)
    (h2 : a ∉ ifacesEnds) : ∃ w, ifacesMain env (pre ++ a :: post) = (w, .ok 1) ∧ w.out = [] ∧ a <:+: w.err := by
  rw [ifacesMain, args_flags pre {} hpre]
  simp only [ifacesFlags, ifacesEnds, List.map_cons, List.map_nil, List.mem_cons, List.not_mem_nil, or_false, not_or] at h1 h2
  rw [ifacesArgs]
  simp only [h1, h2, or_self, if_false]
  exact ⟨_, rfl, rfl, _, _, rfl⟩

/-- **C75**: the help and the version end the tool before anything is listed. -/
theorem C75_help (env : IfacesEnv) (pre post : List Str) (a : Str) (hpre : ∀ x ∈ pre, x ∈ ifacesFlags) (h : a ∈ ifacesEnds) :
    ∃ w n, ifacesMain env (pre ++ a :: post) = (w, .ok n) ∧ w.err = [] ∧ (n = 0 ↔ a = "-V".toList ∨ a = "--version".toList) := by
  rw [ifacesMain, args_flags pre {} hpre]
  simp only [ifacesEnds, List.map_cons, List.map_nil, List.mem_cons, List.not_mem_nil, or_false] at h
  rw [ifacesArgs]
  rcases h with rfl | rfl | rfl | rfl
  all_goals
    simp only [String.toList_inj, String.reduceEq, or_false, false_or, or_self, if_false, if_true]
    exact ⟨_, _, rfl, rfl, by decide⟩

/-- **C75**: without interfaces the tool fails with a message; when the system cannot be asked for them, its behavior is undefined
(`get_local_addresses()` returns a null pointer). -/
theorem C75_no_interfaces (env : IfacesEnv) (o : IfacesOptions) :
    (env.interfaces = some [] → ∃ w, ifacesRun env o .empty = (w, .ok 1) ∧ w.out = [] ∧ w.err ≠ [])
      ∧ (env.interfaces = none → ifacesRun env o .empty = (.empty, .ub .nullDereference)) := by
  constructor <;> intro h <;> rw [ifacesRun, h]
  · exact ⟨_, rfl, rfl, by decide⟩
  · rfl

/-! ### Examples -/

/-- An interface with an IPv4 address. -/
def sampleIface (name : String) (flags : BitVec 32) (a b c d : Byte) : Iface where
  name := name.toList
  flags := flags
  address := sampleV4 a b c d
  broadcast := Addr.default
  destination := Addr.default

/-- The loopback interface, and one with a private and a public address; no address has a host name. -/
def sampleIfaces : IfacesEnv where
  interfaces := some [sampleIface "lo" 73 127 0 0 1, sampleIface "eth0" 4163 192 168 1 10, sampleIface "eth0" 4163 8 8 4 4]
  routes := routeTable 30 kernelRoutes
  db := sampleDb
  nameOf _ := []

example : ∃ l, sampleIfaces.interfaces = some l ∧ l ≠ [] ∧ ∀ i ∈ l, i.address.privateNetwork = .undefined ∧ IsWord i.name
    ∧ i.name.length < 17 ∧ i.flags.toNat < 100000 :=
  ⟨_, rfl, by decide, by unfold IsWord; decide +kernel⟩

/-- What is printed. -/
def printed (r : Output × Res Int) : Option (Str × Str × Int) :=
  match r with
  | (w, .ok n) => some (w.out, w.err, n)
  | _ => none

example : printed (ifacesMain sampleIfaces ["--name-only".toList]) = some ("lo\neth0\n".toList, [], 0)
    ∧ printed (ifacesMain sampleIfaces ["--name-only".toList, "--private".toList]) = some ("eth0\n".toList, [], 0)
    ∧ printed (ifacesMain sampleIfaces ["--private".toList, "--name-only".toList, "--loopback".toList]) = some ("lo\n".toList, [], 0)
    ∧ printed (ifacesMain sampleIfaces ["--public".toList, "--hide-headers".toList])
      = some (("eth0             4163  8.8.4.4                                  " ++
      "0.0.0.0                                  0.0.0.0                                  \n").toList, [], 0)
    ∧ printed (ifacesMain sampleIfaces ["--public".toList, "--asterisk".toList, "--hide-headers".toList])
      = some (("eth0             4163  8.8.4.4                                  " ++
      "*                                        *                                        \n").toList, [], 0) := by
  decide +kernel

example : "--public".toList ∈ ifacesFlags ∧ "--verbose".toList ∉ ifacesFlags ∧ "--verbose".toList ∉ ifacesEnds := by
  decide +kernel

/-- The flags of a CAN interface have six digits (IFF_ECHO is 262144): they run into the address. -/
example : runTogether [(17, "can0".toList), (6, dec 262337), (41, "0.0.0.0".toList), (41, "*".toList), (41, "*".toList)]
    = ["can0".toList, "2623370.0.0.0".toList, "*".toList, "*".toList] := by
  decide +kernel

/-- C75 fails: the host name of the address is compared with the name of the interface, so that nothing is shown. -/
theorem C75_claim_fails : ¬ C75_claim := by
  intro h
  have hrun : printed (ifacesMain sampleIfaces ["--default".toList, "--name-only".toList]) = some ([], [], 0) := by decide +kernel
  obtain ⟨w, h1, h2⟩ := h sampleIfaces _ 30 kernelRoutes rfl (by decide) (by decide)
    (by unfold KernelRouteOk kernelRoutes; decide +kernel) rfl (by unfold IsWord; decide +kernel)
  rw [h1] at hrun
  have hw : w.out = [] := by
    have := Option.some.inj hrun
    exact (Prod.mk.inj this).1
  rw [hw] at h2
  have := (h2 "eth0".toList).2 (by decide +kernel)
  exact absurd this (by decide)

/-- C75: without a default route, the interfaces without a host name are all shown. -/
example : printed (ifacesMain { sampleIfaces with routes := routeTable 30 (kernelRoutes.drop 1) } ["--default".toList, "--name-only".toList])
    = some ("lo\neth0\n".toList, [], 0) := by decide +kernel

/-- C75: flags which fill their column run into the address. -/
example : printed (ifacesMain { sampleIfaces with interfaces := some [sampleIface "can0" 0x400c1 10 0 0 1] } ["--hide-headers".toList])
    = some (("can0             26233710.0.0.1                                 " ++
      "0.0.0.0                                  0.0.0.0                                  \n").toList, [], 0) := by
  decide +kernel

end Verif
