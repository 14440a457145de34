import Verif.Lemmas.ParserAsked
import Verif.Props.CommentNames
import Verif.Props.StringToHost
import Verif.Props.Validator

/-!
# C154: the questions put to the name service

A question which is not put cannot have an effect: two systems which give the same answers to the questions which may be put
about a text give the same outcome, whatever they answer to all the other questions.
-/

namespace Verif

open Spec

/-- The names which `string_to_addr()` may look up: a piece of the text, the default address (without its brackets) or the
address of any host. -/
def NameAsked (a d node : Str) : Prop :=
  ∃ t, node = cstr t ∧ ((t ≠ [] ∧ t <:+: a) ∨ t = "0.0.0.0".toList ∨ t = "::".toList ∨ (d ≠ [] ∧ (t = d ∨ d = "[".toList ++ t ++ "]".toList)))

/-! ### Lemmas -/

theorem own_defaults {env : ParseEnv} {d : Str} {port : Int} {proto : Str} {mask : Bool} (hd : Acceptable env d port proto) (t : Str)
    (ht : t = (if (ownParser env d port proto mask).config.defaultAddress4 = [] then "0.0.0.0".toList
        else (ownParser env d port proto mask).config.defaultAddress4)
      ∨ t = (if (ownParser env d port proto mask).config.defaultAddress6 = [] then "::".toList
        else (ownParser env d port proto mask).config.defaultAddress6)) :
    t = "0.0.0.0".toList ∨ t = "::".toList ∨ (d ≠ [] ∧ (t = d ∨ d = "[".toList ++ t ++ "]".toList)) := by
  obtain ⟨h1, f1, p1, d1⟩ := step_address (d := d) Parser.create rfl rfl
  obtain ⟨h2, f2, p2, a2, a2'⟩ := step_port (port := port) (Parser.setDefaultAddress d Parser.create).1 (d1.trans rfl)
  obtain ⟨h3, f3, d3, a3, a3'⟩ := step_protocol (env := env) (proto := proto)
    (Parser.setDefaultPort port (Parser.setDefaultAddress d Parser.create).1).1 (p2.trans (p1.trans rfl))
  have hown := congrArg Prod.fst (setAllow_mask (ParserOp.run env (if proto = [] then .clearProtocol else .setProtocolStr proto)
      (Parser.setDefaultPort port (Parser.setDefaultAddress d Parser.create).1).1) mask)
  change ownParser env d port proto mask = _ at hown
  have e4 : (ownParser env d port proto mask).config.defaultAddress4 = (Parser.setDefaultAddress d Parser.create).1.config.defaultAddress4 := by
    rw [hown]
    exact a3.trans a2
  have e6 : (ownParser env d port proto mask).config.defaultAddress6 = (Parser.setDefaultAddress d Parser.create).1.config.defaultAddress6 := by
    rw [hown]
    exact a3'.trans a2'
  rw [e4, e6] at ht
  have key : (((Parser.setDefaultAddress d Parser.create).1.config.defaultAddress4 = [])
        ∨ (d ≠ [] ∧ (Parser.setDefaultAddress d Parser.create).1.config.defaultAddress4 = d))
      ∧ (((Parser.setDefaultAddress d Parser.create).1.config.defaultAddress6 = [])
        ∨ (d ≠ [] ∧ ((Parser.setDefaultAddress d Parser.create).1.config.defaultAddress6 = d
          ∨ d = "[".toList ++ (Parser.setDefaultAddress d Parser.create).1.config.defaultAddress6 ++ "]".toList))) := by
    have hb := hd.address
    rw [Parser.setDefaultAddress, PM.config_bind]
    split
    · exact ⟨.inl rfl, .inl rfl⟩
    · rename_i rest
      rw [if_neg (by rw [Classical.not_not]; exact hb rfl)]
      exact ⟨.inl rfl, .inr ⟨List.cons_ne_nil _ _, .inr (Parser.unbracket rfl (hb rfl))⟩⟩
    · rename_i hne _
      split
      · exact ⟨.inl rfl, .inr ⟨hne, .inl rfl⟩⟩
      · exact ⟨.inr ⟨hne, rfl⟩, .inl rfl⟩
  obtain ⟨k4, k6⟩ := key
  rcases ht with ht | ht
  · split at ht
    · exact .inl ht
    · rename_i hn
      rcases k4 with k | ⟨hne, k⟩
      · exact absurd k hn
      · exact .inr (.inr ⟨hne, .inl (ht.trans k)⟩)
  · split at ht
    · exact .inr (.inl ht)
    · rename_i hn
      rcases k6 with k | ⟨hne, k⟩
      · exact absurd k hn
      · rw [← ht] at k
        exact .inr (.inr ⟨hne, k⟩)

theorem own_same {env1 env2 : ParseEnv} (h : env1.getprotobyname = env2.getprotobyname) (d : Str) (port : Int) (proto : Str) (mask : Bool) :
    ownParser env1 d port proto mask = ownParser env2 d port proto mask := by
  rw [ownParser, ownParser]
  by_cases hp : proto = []
  · rw [if_pos hp]
    rfl
  · rw [if_neg hp]
    simp only [ParserOp.runAll, ParserOp.run, Parser.setProtocolStr, h]

/-! ### C154 -/

/-- C154: the outcome of `parse()`, its messages included, depends on the answers to the questions which may be put about the
text only. -/
theorem C154_asks_only (env1 env2 : ParseEnv) (p : Parser) (inp : Str) (h : AlikeOn env1 env2 (MayAsk p.config inp)) :
    Parser.parse env1 inp p = Parser.parse env2 inp p := Parser.asked_parse h p rfl

/-- C154: in a list, the questions are about one item at a time, without its comment. -/
theorem C154_list (env1 env2 : ParseEnv) (p : Parser) (inp : Str) (hl : ListMode p)
    (h : ∀ e ∈ pieces p inp, AlikeOn env1 env2 (MayAsk p.config e)) : Parser.parse env1 inp p = Parser.parse env2 inp p := by
  refine Parser.asked_list ((listMode_iff p).2 hl) (fun e he => h e ?_) p rfl
  rw [← pieces_eq]
  exact he

/-- C154: where lookups are not allowed, no question is put which could be about the name of a host: only what follows a slash
(or a default mask) is asked for, as a number, and only where masks written as addresses are allowed. -/
theorem C154_numeric_only (env1 env2 : ParseEnv) (p : Parser) (inp : Str) (hl : p.config.flags .addressLookup = false)
    (h : AlikeOn env1 env2 fun node service numeric protocol =>
      numeric = true ∧ p.config.flags .mask = true ∧ AskedMask p.config inp node service protocol) :
    Parser.parse env1 inp p = Parser.parse env2 inp p := by
  refine C154_asks_only env1 env2 p inp ⟨h.convert, h.gaiStrerror, h.strerror, fun node service numeric protocol hq => ?_⟩
  rw [MayAsk] at hq
  split at hq
  · rename_i hn
    obtain ⟨m, t, hm, _⟩ := hq.2.1
    exact h.answers _ _ _ _ ⟨hn, hm.1, hq⟩
  · rw [hq.1] at hl
    cases hl

/-- C154: `validate()` of the address validator puts the same questions. -/
theorem C154_validator (env1 env2 : ParseEnv) (p : Parser) (value : Str) (h : AlikeOn env1 env2 (MayAsk p.config value)) :
    Validator.validate env1 value p = Validator.validate env2 value p := by
  rw [validate_eq, validate_eq, C154_asks_only env1 env2 { p with error := [], errorCount := 0 } value h]

/-- C154: `string_to_addr()` looks up nothing but pieces of its text and its default address, never as a mask. -/
theorem C154_string_to_addr (env1 env2 : ParseEnv) (a d : Str) (port : Int) (proto : Str) (mask : Bool)
    (hp : env1.getprotobyname = env2.getprotobyname)
    (h : AlikeOn env1 env2 fun node _ numeric _ => numeric = false ∧ NameAsked a d node) :
    Parser.stringToAddr env1 a d port proto mask = Parser.stringToAddr env2 a d port proto mask := by
  have hown := own_same hp d port proto mask
  have hacc : Acceptable env1 d port proto ↔ Acceptable env2 d port proto :=
    ⟨fun h => ⟨h.address, h.port, fun h' => by rw [← hp]; exact h.protocol h'⟩,
      fun h => ⟨h.address, h.port, fun h' => by rw [hp]; exact h.protocol h'⟩⟩
  rcases stringToAddr_cases (env := env1) (d := d) (port := port) (proto := proto) (mask := mask) a with ⟨h1, e1⟩ | ⟨h1, e1, o1⟩ <;>
    rcases stringToAddr_cases (env := env2) (d := d) (port := port) (proto := proto) (mask := mask) a with ⟨h2, e2⟩ | ⟨h2, e2, o2⟩
  · rw [e1, e2]
  · exact absurd (hacc.2 h2) h1
  · exact absurd (hacc.1 h1) h2
  · rw [e1, e2, hown, PM.bind_def, PM.bind_def]
    rw [hown] at o1
    rw [C154_asks_only env1 env2 _ a]
    refine ⟨h.convert, h.gaiStrerror, h.strerror, fun node service numeric protocol hq => h.answers _ _ _ _ ?_⟩
    rw [MayAsk] at hq
    split at hq
    · have := hq.1
      rw [o2.flags] at this
      cases this
    · rename_i hn
      obtain ⟨t, ht, hnode⟩ := hq.2.1
      refine ⟨Bool.eq_false_iff.2 hn, t, hnode, ht.imp id fun h => own_defaults h2 t h.2⟩

/-! ### Examples -/

/-- A system which knows one more host, with the name `doors`. -/
def doorsEnv : ParseEnv :=
  { hostsEnv with
    getaddrinfo := fun node service numeric hint =>
      if node = "doors".toList then
        .list (spread hint [.inet sizeofIn 0 { family := AF_INET, port := 0, addr := #v[10, 0, 0, 9], zero := Vector.replicate 8 0 }])
      else hostsEnv.getaddrinfo node service numeric hint }

-- C154_list: a name in a comment is not looked up; it would be without the comment.
example : Parser.parse hostsEnv "gate:80# doors\n# doors\n".toList hostFileParser
      = Parser.parse doorsEnv "gate:80# doors\n# doors\n".toList hostFileParser
    ∧ (Parser.parse hostsEnv "gate:80\ndoors\n".toList hostFileParser).2 ≠ (Parser.parse doorsEnv "gate:80\ndoors\n".toList hostFileParser).2 := by
  refine ⟨C154_list hostsEnv doorsEnv hostFileParser _ (by unfold ListMode; decide) ?_, by decide +kernel⟩
  have hp : pieces hostFileParser "gate:80# doors\n# doors\n".toList = ["gate:80".toList] := by decide +kernel
  rw [hp]
  intro e he
  cases List.mem_singleton.1 he
  refine ⟨rfl, rfl, rfl, fun node service numeric protocol hq => ?_⟩
  rw [MayAsk] at hq
  split at hq
  · exact absurd hq.1 (by decide)
  · obtain ⟨t, ht, hn⟩ := hq.2.1
    have hne : node ≠ "doors".toList := by
      rw [hn]
      rcases ht with ⟨_, ht⟩ | ⟨_, ht | ht⟩
      · intro h
        have hs : 's' ∈ cstr t := by rw [h]; decide
        exact absurd (ht.subset ((List.takeWhile_prefix _).subset hs)) (by decide)
      · rw [ht]; decide
      · rw [ht]; decide
    exact (if_neg hne).symm

-- C154_string_to_addr: with a default address, nothing else is looked up.
example : Parser.stringToAddr hostsEnv ":80".toList "gate".toList (-1) "tcp".toList false
    = Parser.stringToAddr doorsEnv ":80".toList "gate".toList (-1) "tcp".toList false := by
  refine C154_string_to_addr _ _ _ _ _ _ _ rfl ⟨rfl, rfl, rfl, ?_⟩
  rintro node service numeric protocol ⟨_, t, hn, ht⟩
  have hne : node ≠ "doors".toList := by
    rw [hn]
    rcases ht with ⟨_, ht⟩ | ht | ht | ⟨_, ht | ht⟩
    · intro h
      have hs : 's' ∈ cstr t := by rw [h]; decide
      exact absurd (ht.subset ((List.takeWhile_prefix _).subset hs)) (by decide)
    · rw [ht]; decide
    · rw [ht]; decide
    · rw [ht]; decide
    · exact absurd (congrArg List.head? ht) (by simp)
  exact (if_neg hne).symm

end Verif
