import Verif.Model.Memory
import Verif.Lemmas.ParserSafe
import Verif.Props.IfaceHas
import Verif.Props.IfaceList
import Verif.Props.LookupMask

/-!
# C132: the lists which the system allocates are freed

The theorems hold for any allocator, also one which gives again the addresses which were freed.
-/

namespace Verif

namespace Spec

/-- The allocator never gives an address which is in use. -/
def NeverInUse {α : Type} (fresh : Memory α → Nat) : Prop := ∀ m, ∀ x ∈ m, x.1 ≠ fresh m

/-- A question to the system: the name of a host or a mask is looked up, by a given parser and with the answers
of that moment. -/
inductive Question
  | host (env : ParseEnv) (p : Parser) (address port : Str) (definedPort : Bool) (result : List Range)
  | mask (env : ParseEnv) (p : Parser) (text : Str) (cidr : Addr) (isIpv4 : Bool)

/-- The memory once all the questions are asked, one after the other, whether they throw or not. -/
def afterQuestions (fresh : Memory AddrInfo → Nat) : List Question → Memory AddrInfo → Memory AddrInfo
  | [], m => m
  | .host env p address port d result :: l, m => afterQuestions fresh l (Parser.lookupAddressMem fresh env address port d result m p).1
  | .mask env p text cidr v4 :: l, m => afterQuestions fresh l (Parser.addressMaskMem fresh env text cidr v4 m p).1

/-- A question about a mask which succeeds has an answer. -/
def Question.Answered : Question → Prop
  | .host .. => True
  | .mask env .. => SomeAnswer env

end Spec

open Spec

namespace Memory

variable {α β σ : Type}

/-- `nodes` are the nodes of the list `l` which `p` points to, in order. -/
def Linked : Option Nat → List (Nat × Node α) → List α → Prop
  | none, [], [] => True
  | some a, (b, n) :: nodes, x :: l => a = b ∧ n.info = x ∧ Linked n.next nodes l
  | _, _, _ => False

/-- The addresses of `nodes` are distinct, and none is in `m`. -/
def Apart : List (Nat × Node α) → Memory α → Prop
  | [], _ => True
  | x :: nodes, m => (∀ y ∈ nodes ++ m, y.1 ≠ x.1) ∧ Apart nodes m

theorem alloc_linked {fresh : Memory α → Nat} (hf : NeverInUse fresh) (m : Memory α) : (l : List α) →
    ∃ nodes, (allocList fresh l m).2 = nodes ++ m ∧ Linked (allocList fresh l m).1 nodes l ∧ Apart nodes m
  | [] => ⟨[], rfl, trivial, trivial⟩
  | x :: l => by
    obtain ⟨nodes, h1, h2, h3⟩ := alloc_linked hf m l
    refine ⟨(fresh (allocList fresh l m).2, { info := x, next := (allocList fresh l m).1 }) :: nodes, ?_, ⟨rfl, rfl, h2⟩, ?_, h3⟩
    · show (_ :: (allocList fresh l m).2) = _
      rw [h1]; rfl
    · intro y hy
      exact hf _ y (by rw [h1]; exact hy)

theorem free_linked (m : Memory α) : (nodes : List (Nat × Node α)) → (l : List α) → (p : Option Nat) → (fuel : Nat) →
    Linked p nodes l → Apart nodes m → nodes.length ≤ fuel → freeList fuel p (nodes ++ m) = .ok m
  | [], l, p, fuel, h, _, _ => by
    cases p with
    | none => cases fuel <;> rfl
    | some a => cases l <;> exact h.elim
  | (b, n) :: nodes, [], p, fuel, h, _, _ => by cases p <;> exact h.elim
  | (b, n) :: nodes, x :: l, none, fuel, h, _, _ => h.elim
  | (b, n) :: nodes, x :: l, some a, 0, _, _, hl => absurd hl (by simp)
  | (b, n) :: nodes, x :: l, some a, fuel + 1, h, ha, hl => by
    obtain ⟨rfl, _, h3⟩ := h
    have h4 : read ((a, n) :: nodes ++ m) (some a) = .ok n := by simp [read, List.lookup]
    have h5 : ((a, n) :: nodes ++ m).filter (fun x => x.1 ≠ a) = nodes ++ m := by
      rw [List.cons_append, List.filter_cons_of_neg (by simp)]
      exact List.filter_eq_self.2 fun y hy => by simpa using ha.1 y hy
    show (read _ _ >>= _) = _
    rw [h4, Res.bind_ok, h5]
    exact free_linked m nodes l n.next fuel h3 ha.2 (by simpa using hl)

theorem lookup_apart (m : Memory α) : (nodes : List (Nat × Node α)) → Apart nodes m → ∀ x ∈ nodes,
    (nodes ++ m).lookup x.1 = some x.2
  | [], _, x, hx => absurd hx (by simp)
  | y :: nodes, h, x, hx => by
    rcases List.mem_cons.1 hx with rfl | hx
    · simp [List.lookup]
    · have h1 : (x.1 == y.1) = false := by simpa using h.1 x (by simp [hx])
      show List.lookup x.1 ((y.1, y.2) :: (nodes ++ m)) = _
      simp only [List.lookup, h1]
      exact lookup_apart m nodes h.2 x hx

/-- The turns of a loop over a list. -/
def turns (body : α → β → σ → σ × Res β) : List α → β → σ → σ × Res β
  | [], acc, s => (s, .ok acc)
  | x :: l, acc, s =>
    match body x acc s with
    | (s, .ok acc) => turns body l acc s
    | (s, .throw e) => (s, .throw e)
    | (s, .ub w) => (s, .ub w)

theorem walk_linked (body : α → β → σ → σ × Res β) (m : Memory α) : (nodes : List (Nat × Node α)) → (l : List α) →
    (p : Option Nat) → (fuel : Nat) → (acc : β) → (s : σ) → Linked p nodes l → (∀ x ∈ nodes, m.lookup x.1 = some x.2) →
    nodes.length ≤ fuel → walk body fuel p acc m s = turns body l acc s
  | [], l, p, fuel, acc, s, h, _, _ => by
    cases p with
    | none => cases l with
      | nil => cases fuel <;> rfl
      | cons => exact h.elim
    | some a => cases l <;> exact h.elim
  | (b, n) :: nodes, [], p, fuel, _, _, h, _, _ => by cases p <;> exact h.elim
  | (b, n) :: nodes, x :: l, none, fuel, _, _, h, _, _ => h.elim
  | (b, n) :: nodes, x :: l, some a, 0, _, _, _, _, hl => absurd hl (by simp)
  | (b, n) :: nodes, x :: l, some a, fuel + 1, acc, s, h, hm, hl => by
    obtain ⟨rfl, rfl, h3⟩ := h
    have h4 : read m (some a) = .ok n := by
      have h := hm (a, n) (by simp)
      simp only at h
      simp only [read, h]
    simp only [walk, turns, h4]
    generalize body n.info acc s = r
    obtain ⟨s, r⟩ := r
    cases r with
    | ok acc => exact walk_linked body m nodes l n.next fuel acc s h3 (fun y hy => hm y (by simp [hy])) (by simpa using hl)
    | throw e => rfl
    | ub w => rfl

/-- A scope which owns a list: what it returns is what it computes from the list, and the memory is as it was before. -/
theorem guarded_alloc {fresh : Memory α → Nat} (hf : NeverInUse fresh) (l : List α) (m : Memory α) (s : σ)
    {scope : Memory α → σ → σ × Res β} {r : σ × Res β}
    (h : scope (allocList fresh l m).2 s = r) :
    (guarded (allocList fresh l m).1 scope (allocList fresh l m).2 s).2 = r
      ∧ ((∀ w, r.2 ≠ .ub w) → (guarded (allocList fresh l m).1 scope (allocList fresh l m).2 s).1 = m) := by
  obtain ⟨nodes, h1, h2, h3⟩ := alloc_linked hf m l
  have h4 := free_linked m nodes l _ (nodes ++ m).length h2 h3 (by simp)
  obtain ⟨s', r⟩ := r
  unfold guarded
  rw [h, h1]
  cases r with
  | ok x => simp only [h4]; exact ⟨trivial, fun _ => trivial⟩
  | throw e => simp only [h4]; exact ⟨trivial, fun _ => trivial⟩
  | ub w => simp

theorem walk_alloc {fresh : Memory α → Nat} (hf : NeverInUse fresh) (l : List α) (m : Memory α) (s : σ)
    (body : α → β → σ → σ × Res β) (acc : β) :
    walk body (allocList fresh l m).2.length (allocList fresh l m).1 acc (allocList fresh l m).2 s = turns body l acc s := by
  obtain ⟨nodes, h1, h2, h3⟩ := alloc_linked hf m l
  refine walk_linked body _ nodes l _ _ acc s h2 ?_ ?_
  · rw [h1]; exact lookup_apart m nodes h3
  · rw [h1]; simp

end Memory

open Memory

namespace Parser

theorem turns_addrinfo (hostname : Str) (d : Bool) : (l : List AddrInfo) → (first : Bool) → (result : List Range) → (p : Parser) →
    (match turns (addrinfoTurn hostname d) l (first, result) p with
      | (p, .ok x) => (p, .ok x.2)
      | (p, .throw e) => (p, .throw e)
      | (p, .ub w) => (p, .ub w)) = addrinfoLoop hostname d l first result p
  | [], first, result, p => rfl
  | .inet len protocol sa :: l, first, result, p => by
    simp only [turns, addrinfoTurn, addrinfoLoop]
    by_cases h : len ≠ sizeofIn
    · rw [if_pos h, if_pos h]
      exact turns_addrinfo hostname d l first result _
    · rw [if_neg h, if_neg h]
      simp only [PM.bind_def, PM.lift]
      cases makeRange (Addr.ofIn sa) hostname protocol d with
      | ok r => exact turns_addrinfo hostname d l first _ p
      | throw e => rfl
      | ub w => rfl
  | .inet6 len protocol sa :: l, first, result, p => by
    simp only [turns, addrinfoTurn, addrinfoLoop]
    by_cases h : len ≠ sizeofIn6
    · rw [if_pos h, if_pos h]
      exact turns_addrinfo hostname d l first result _
    · rw [if_neg h, if_neg h]
      simp only [PM.bind_def, PM.lift]
      cases makeRange (Addr.ofIn6 sa) hostname protocol d with
      | ok r => exact turns_addrinfo hostname d l first _ p
      | throw e => rfl
      | ub w => rfl
  | .other family :: l, first, result, p => by
    simp only [turns, addrinfoTurn, addrinfoLoop]
    cases first with
    | false => exact turns_addrinfo hostname d l false result p
    | true => exact turns_addrinfo hostname d l false result _

end Parser

namespace Parser

theorem lookupAddress_apply (env : ParseEnv) (address port : Str) (d : Bool) (result : List Range) (p : Parser) :
    lookupAddress env address port d result p = (match env.getaddrinfo (cstr address)
      (if port = [] then ['0'] else cstr port) false (hintProtocol p.config.protocol) with
    | .error r e =>
      ((emitError ("Invalid address in \"".toList ++ address ++ (if port = [] then [] else [':']) ++ port
        ++ "\" error ".toList ++ intStr r ++ " -- ".toList ++ env.gaiStrerror r
        ++ (if e = 0 then [] else " (errno: ".toList ++ intStr e ++ " -- ".toList ++ env.strerror e ++ ").".toList)) p).1, .ok result)
    | .list l => addrinfoLoop address d l true result p) := by
  show (match env.getaddrinfo _ _ _ _ with
    | .error r e => _
    | .list l => _ : PM (List Range)) p = _
  cases env.getaddrinfo (cstr address) (if port = [] then ['0'] else cstr port) false (hintProtocol p.config.protocol) <;> rfl

/-- What the mask is for an answer. -/
def maskList (isIpv4 : Bool) : List AddrInfo → PM (Option Bytes16)
  | [] => fun p => (p, .ub .nullDereference)
  | x :: _ => maskAnswer isIpv4 x

theorem read_alloc {fresh : Memory AddrInfo → Nat} (isIpv4 : Bool) (l : List AddrInfo) (m : Memory AddrInfo) (p : Parser) :
    (match Memory.read (allocList fresh l m).2 (allocList fresh l m).1 with
      | .ok n => maskAnswer isIpv4 n.info p
      | .throw e => (p, .throw e)
      | .ub w => (p, .ub w)) = maskList isIpv4 l p := by
  cases l with
  | nil => rfl
  | cons x l => simp [allocList, Memory.read, maskList]

/-- The mask of a list of answers is the one of its first. -/
theorem addressMask_apply (env : ParseEnv) (mask : Str) (cidr : Addr) (isIpv4 : Bool) (p : Parser) (m : Memory AddrInfo)
    {fresh : Memory AddrInfo → Nat} (hf : NeverInUse fresh) :
    (addressMaskMem fresh env mask cidr isIpv4 m p).2 = addressMask env mask cidr isIpv4 p
      ∧ ((∀ w, (addressMask env mask cidr isIpv4 p).2 ≠ .ub w) → (addressMaskMem fresh env mask cidr isIpv4 m p).1 = m) := by
  have h0 : addressMask env mask cidr isIpv4 p = (addressMask env mask cidr isIpv4 : PM _) p := rfl
  unfold addressMask at h0 ⊢
  unfold addressMaskMem
  simp only [PM.bind_def, PM.config]
  by_cases h1 : (!p.config.flags .addressMask) = true
  · simp only [if_pos h1]; exact ⟨rfl, fun _ => trivial⟩
  simp only [if_neg h1]
  by_cases h2 : (isIpv4 && decide (mask.head? = some '[')) = true
  · simp only [if_pos h2]; exact ⟨rfl, fun _ => trivial⟩
  simp only [if_neg h2]
  by_cases h3 : (!isIpv4 && decide (mask.head? ≠ some '[')) = true
  · simp only [if_pos h3]; exact ⟨rfl, fun _ => trivial⟩
  simp only [if_neg h3]
  by_cases h4 : (!isIpv4 && decide (mask.getLast? ≠ some ']')) = true
  · simp only [if_pos h4]; exact ⟨rfl, fun _ => trivial⟩
  simp only [if_neg h4]
  by_cases h5 : (!isIpv4 && decide ((if isIpv4 = true then mask else (mask.drop 1).dropLast) = [])) = true
  · simp only [if_pos h5]; exact ⟨rfl, fun _ => trivial⟩
  simp only [if_neg h5]
  cases env.getaddrinfo (cstr (if isIpv4 = true then mask else (mask.drop 1).dropLast)) (Inet.decStr cidr.getPort) true
    (hintProtocol cidr.protocol) with
  | error r e => exact ⟨rfl, fun _ => rfl⟩
  | list l =>
    refine guarded_alloc hf l m p ?_
    refine (read_alloc isIpv4 l m p).trans ?_
    cases l with
    | nil => rfl
    | cons x l =>
      cases x with
      | inet len protocol sa =>
        cases isIpv4 with
        | false => rfl
        | true => rfl
      | inet6 len protocol sa =>
        cases isIpv4 with
        | false => rfl
        | true => rfl
      | other f => rfl

end Parser

/-- Property C132: the name of a host. What is added to the result, the complaints and the exceptions are the ones of the list of the
answers, so no pointer is used once its list is free, and after the call, with or without an exception, the memory is as before. -/
theorem C132_host {fresh : Memory AddrInfo → Nat} (hf : NeverInUse fresh) (env : ParseEnv) (address port : Str) (d : Bool)
    (result : List Range) (m : Memory AddrInfo) (p : Parser) :
    Parser.lookupAddressMem fresh env address port d result m p = (m, Parser.lookupAddress env address port d result p) := by
  have h : (Parser.lookupAddressMem fresh env address port d result m p).2 = Parser.lookupAddress env address port d result p
      ∧ ((∀ w, (Parser.lookupAddress env address port d result p).2 ≠ .ub w) →
        (Parser.lookupAddressMem fresh env address port d result m p).1 = m) := by
    rw [Parser.lookupAddress_apply]
    unfold Parser.lookupAddressMem
    cases env.getaddrinfo (cstr address) (if port = [] then ['0'] else cstr port) false (Parser.hintProtocol p.config.protocol) with
    | error r e => exact ⟨rfl, fun _ => rfl⟩
    | list l =>
      refine guarded_alloc hf l m p ?_
      have hw := walk_alloc hf l m p (Parser.addrinfoTurn address d) (true, result)
      exact (congrArg (fun r : Parser × Res (Bool × List Range) => match r with
        | (p, .ok x) => (p, Res.ok x.2)
        | (p, .throw e) => (p, Res.throw e)
        | (p, .ub w) => (p, Res.ub w)) hw).trans (Parser.turns_addrinfo address d l true result p)
  exact Prod.ext (h.2 (Parser.noUb_lookupAddress env address port d result p)) h.1

/-- Property C132: the mask. The outcome is the one of the list of the answers, and the memory is as before, unless there is a success
without an answer, which no C library gives. -/
theorem C132_mask {fresh : Memory AddrInfo → Nat} (hf : NeverInUse fresh) (env : ParseEnv) (mask : Str) (cidr : Addr) (isIpv4 : Bool)
    (m : Memory AddrInfo) (p : Parser) :
    (Parser.addressMaskMem fresh env mask cidr isIpv4 m p).2 = Parser.addressMask env mask cidr isIpv4 p
      ∧ (SomeAnswer env →
        (Parser.addressMaskMem fresh env mask cidr isIpv4 m p).1 = m) := by
  have h := Parser.addressMask_apply env mask cidr isIpv4 p m hf
  refine ⟨h.1, fun hne => h.2 ?_⟩
  obtain ⟨p', o, ho, _⟩ := Parser.safe_addressMask (c := p.config) (fun _ => hne) mask cidr isIpv4 p rfl
  rw [ho]
  exact fun _ h => nomatch h

namespace Iface

theorem turns_entries : (es : List IfAddrs) → (l : List Iface) →
    turns (fun e l (_ : Unit) => ((), ifaddrsTurn e l)) es l () = ((), ofEntries es >>= fun r => .ok (l ++ r))
  | [], l => by simp [turns, ofEntries]
  | e :: es, l => by
    rw [turns, ofEntries, ifaddrsTurn]
    cases ofEntry e with
    | throw x => rfl
    | ub w => rfl
    | ok i =>
      refine (turns_entries es _).trans ?_
      simp only [Res.bind_ok]
      cases ofEntries es with
      | throw x => rfl
      | ub w => rfl
      | ok r => cases i <;> simp

end Iface

/-- Property C132: the interfaces. The vector, or the exception, is the one of the list of the system, and the memory is as before. -/
theorem C132_interfaces {fresh : Memory IfAddrs → Nat} (hf : NeverInUse fresh) (es : List IfAddrs) (m : Memory IfAddrs) :
    Iface.getLocalAddressesMem fresh (some es) m = (m, Iface.ofEntries es >>= fun l => .ok (some l)) := by
  have hw := walk_alloc hf es m () (fun e l (_ : Unit) => ((), Iface.ifaddrsTurn e l)) []
  rw [Iface.turns_entries] at hw
  have h := guarded_alloc hf es m () (scope := fun m' (_ : Unit) =>
      Memory.walk (fun e l _ => ((), Iface.ifaddrsTurn e l)) m'.length (allocList fresh es m).1 [] m' ()) hw
  have h1 : (guarded (allocList fresh es m).1 (fun m' (_ : Unit) =>
      Memory.walk (fun e l _ => ((), Iface.ifaddrsTurn e l)) m'.length (allocList fresh es m).1 [] m' ()) (allocList fresh es m).2 ())
      = (m, (), Iface.ofEntries es >>= fun r => .ok ([] ++ r)) := by
    refine Prod.ext (h.2 ?_) h.1
    intro w
    rcases C63_no_ub es with ⟨l, hl⟩ | hl <;> rw [hl] <;> exact fun h => nomatch h
  simp only [Iface.getLocalAddressesMem]
  rw [h1]
  rcases C63_no_ub es with ⟨l, hl⟩ | hl <;> rw [hl] <;> rfl

/-- Property C132: no question leaks, however many there are. -/
theorem C132_no_leak {fresh : Memory AddrInfo → Nat} (hf : NeverInUse fresh) (l : List Question) (h : ∀ q ∈ l, q.Answered)
    (m : Memory AddrInfo) : afterQuestions fresh l m = m := by
  induction l with
  | nil => rfl
  | cons q l ih =>
    have h1 := ih fun q hq => h q (by simp [hq])
    have h2 := h q (by simp)
    cases q with
    | host env p address port d result => rw [afterQuestions, C132_host hf]; exact h1
    | mask env p text cidr v4 => rw [afterQuestions, (C132_mask hf env text cidr v4 m p).2 h2]; exact h1

/-- An allocator which takes the lowest address above all the others, so it uses the same addresses again. -/
def lowest {α : Type} (m : Memory α) : Nat := m.foldr (fun x k => max (x.1 + 1) k) 4096

theorem lowest_fresh {α : Type} : NeverInUse (lowest (α := α)) := by
  have h : ∀ (m : Memory α), ∀ x ∈ m, x.1 < lowest m := by
    intro m
    induction m with
    | nil => exact fun x hx => absurd hx (by simp)
    | cons y m ih =>
      intro x hx
      show x.1 < max (y.1 + 1) (lowest m)
      rcases List.mem_cons.1 hx with rfl | hx
      · omega
      · have := ih x hx
        omega
  exact fun m x hx => Nat.ne_of_lt (h m x hx)

/-- The second answer has a protocol which `set_protocol()` refuses. -/
def sctpAnswers : List AddrInfo :=
  [.inet sizeofIn 6 { family := AF_INET, port := 0, addr := #v[127, 0, 0, 1], zero := Vector.replicate 8 0 },
    .inet sizeofIn 132 { family := AF_INET, port := 0, addr := #v[127, 0, 0, 1], zero := Vector.replicate 8 0 }]

def sctpEnv : ParseEnv := { sampleEnv with getaddrinfo := fun _ _ _ _ => .list sctpAnswers }

/-- A list of somebody else. -/
def otherList : Memory AddrInfo := [(4096, { info := .other 1, next := none })]

/-- C132: the exception leaves the function, and the list of two nodes, at 4097 and 4098, is freed; the other list is not. -/
example : Parser.lookupAddressMem lowest sctpEnv "localhost".toList [] false [] otherList hostMaskParser
      = (otherList, hostMaskParser, .throw .invalidArgument)
    ∧ (Memory.allocList lowest sctpAnswers otherList).1 = some 4098
    ∧ (Memory.allocList lowest sctpAnswers otherList).2.map Prod.fst = [4098, 4097, 4096] := by
  refine ⟨?_, by decide, by decide⟩
  rw [C132_host lowest_fresh]
  rfl

/-- What the model would show: a list which is freed twice and a null pointer which is read are undefined behaviours. -/
example : Memory.freeList 3 (some 4098) (Memory.allocList lowest sctpAnswers otherList).2 = .ok otherList
    ∧ Memory.freeList 3 (some 4098) otherList = .ub .danglingPointer
    ∧ Memory.read otherList none = .ub .nullDereference := ⟨by rfl, by rfl, by rfl⟩

/-- C132: two questions, one of which throws. -/
example : afterQuestions lowest [.host sctpEnv hostMaskParser "localhost".toList [] false [],
      .host dualEnv hostMaskParser "localhost".toList [] false []] otherList = otherList :=
  C132_no_leak lowest_fresh _ (by simp [Question.Answered]) _

/-- C132: the list of one interface. -/
example : ∃ i, Iface.getLocalAddressesMem lowest (some [ether6]) [] = ([], .ok (some [i])) := by
  rw [C132_interfaces lowest_fresh]
  exact ⟨_, rfl⟩

end Verif
