import Verif.Lemmas.ParserSays

/-!
# Property C128: the error messages of the parser are true
-/

namespace Verif

open Spec

/-- C128: whatever is read, what is added to the messages is a list of lines, as many as the errors which are counted, and each of them
is true of the text and of the configuration. -/
theorem C128_true_partial (env : ParseEnv) (p : Parser) (inp : Str) :
    ∃ msgs : List Str, (Parser.parse env inp p).1.errorMessages = p.errorMessages ++ msgs.flatMap (· ++ "\n".toList)
      ∧ (Parser.parse env inp p).1.getErrorCount = p.getErrorCount + msgs.length ∧ ∀ m ∈ msgs, Complaint env p.config inp m := by
  obtain ⟨errs, h1, h2, _⟩ := Parser.says_parse (env := env) (c := p.config) inp p rfl
  refine ⟨errs, ?_, ?_, h2⟩
  · rw [h1]; rfl
  · rw [h1]; rfl

/-- C128: ports are reported as not allowed only where they are not. -/
theorem C128_ports (env : ParseEnv) (c : Config) (inp m : Str) (h : Complaint env c inp m)
    (hp : "Port not allowed".toList <+: m ∨ "Found a port".toList <+: m) : c.flags .port = false ∧ c.flags .requiredPort = false := by
  cases h
  case portNotAllowed => exact ⟨by assumption, by assumption⟩
  case portFound => exact ⟨by assumption, by assumption⟩
  all_goals simp at hp

/-- C128: an address is reported as unknown only when it comes from the text (or is the default) and is not an address. -/
theorem C128_unknown (env : ParseEnv) (c : Config) (inp m : Str) (h : Complaint env c inp m) (hp : "Unknown".toList <+: m) :
    ∃ t, m = "Unknown address in \"".toList ++ t ++ "\" (no DNS lookup was allowed).".toList ∧ c.flags .addressLookup = false
      ∧ AddressText c inp t ∧ ¬ ∃ b, Writes t b := by
  cases h
  case unknownAddress t hl ht hw => exact ⟨t, rfl, hl, ht, hw⟩
  all_goals simp at hp

/-- C128: a port is reported as invalid only when it comes from the text (or is the default) and is not the number of a port. -/
theorem C128_invalid_port (env : ParseEnv) (c : Config) (inp m : Str) (h : Complaint env c inp m) (hp : "invalid".toList <+: m) :
    ∃ q written, m = "invalid port in \"".toList ++ q ++ "\" (no service name lookup allowed).".toList
      ∧ c.flags .addressLookup = false ∧ PortText c inp q written ∧ q ≠ [] ∧ ¬ ∃ n : Nat, env.convert q = some (n : Int) ∧ n < 2 ^ 16 := by
  cases h
  case badPort q w hl hq hne hn => exact ⟨q, w, rfl, hl, hq, hne, hn⟩
  all_goals simp at hp

/-- C128: something is reported as missing only when it is required. -/
theorem C128_required (env : ParseEnv) (c : Config) (inp m : Str) (h : Complaint env c inp m) :
    ("Required port".toList <+: m → c.flags .requiredPort = true) ∧ ("Required address".toList <+: m → c.flags .requiredAddress = true) := by
  cases h
  case noPort h => exact ⟨fun _ => h, fun hp => by simp at hp⟩
  case noAddress h => exact ⟨fun hp => by simp at hp, fun _ => h⟩
  all_goals exact ⟨fun hp => by simp at hp, fun hp => by simp at hp⟩

/-- C128: the name service is reported to have refused an address only when it was asked for it and did. -/
theorem C128_refused (env : ParseEnv) (c : Config) (inp m : Str) (h : Complaint env c inp m) (hp : "Invalid address".toList <+: m) :
    ∃ t q r e, Answer env c inp t q (.error r e) ∧ ("Invalid address in \"".toList ++ t) <+: m := by
  cases h
  case invalidAddress t q r e ha =>
    refine ⟨t, q, r, e, ha, ?_⟩
    simp only [List.append_assoc]
    exact ⟨_, List.append_assoc _ _ _⟩
  all_goals simp at hp

/-- C128: the bound of a range is reported not to be one address only when the name service answered two different ones. -/
theorem C128_bounds (env : ParseEnv) (c : Config) (inp m : Str) (h : Complaint env c inp m)
    (hp : "The \"from\"".toList <+: m ∨ "The \"to\"".toList <+: m) :
    ∃ t q l x y sx sy, Answer env c inp t q (.list l) ∧ x ∈ l ∧ y ∈ l ∧ Spec.Holds x sx ∧ Spec.Holds y sy ∧ sx.addr ≠ sy.addr := by
  cases h
  case manyBounds ha hx hy hsx hsy hne => exact ⟨_, _, _, _, _, _, _, ha, hx, hy, hsx, hsy, hne⟩
  all_goals simp at hp

/-- C128: without masks, no message is about a mask; the masks reported as not allowed are not numbers, those reported as too large are
numbers over the number of bits. -/
theorem C128_masks (env : ParseEnv) (c : Config) (inp m : Str) (h : Complaint env c inp m) :
    (("Mask".toList <+: m ∨ "Unsupported mask".toList <+: m ∨ "Address".toList <+: m ∨ "Invalid mask".toList <+: m
        ∨ "The IPv6 mask".toList <+: m ∨ "Incompatible".toList <+: m ∨ "The address uses".toList <+: m) → c.flags .mask = true)
      ∧ ("Address".toList <+: m → c.flags .addressMask = false ∧ ∃ k, MaskText c inp k ∧ ∃ x ∈ cstr k, x.isDigit = false)
      ∧ ("Unsupported mask".toList <+: m → ∃ k, MaskText c inp k ∧ (∀ x ∈ cstr k, x.isDigit = true)
          ∧ 32 < Nat.ofDigitChars 10 (cstr k) 0) := by
  cases h
  case maskNotNumber k hf hm hd =>
    refine ⟨fun _ => hm.1, fun _ => ⟨hf, k, hm, ?_⟩, fun hp => by simp at hp⟩
    refine Classical.byContradiction fun hno => hd ⟨List.prefix_refl _, fun x hx => ?_⟩
    cases hx' : x.isDigit with
    | true => rfl
    | false => exact absurd ⟨x, hx, hx'⟩ hno
  case maskSize4 k hm hd hn => exact ⟨fun _ => hm.1, fun hp => by simp at hp, fun _ => ⟨k, hm, hd.2, hn⟩⟩
  case maskSize6 k hm hd hn => exact ⟨fun _ => hm.1, fun hp => by simp at hp, fun _ => ⟨k, hm, hd.2, by omega⟩⟩
  case maskTooLarge k ds hm hd hn => exact ⟨fun _ => hm.1, fun hp => by simp at hp, fun hp => by simp at hp⟩
  case maskSix hf hm hb => exact ⟨fun _ => hm.1, fun hp => by simp at hp, fun hp => by simp at hp⟩
  case maskFour hf hm hb => exact ⟨fun _ => hm.1, fun hp => by simp at hp, fun hp => by simp at hp⟩
  case maskBracket hf hm hb he => exact ⟨fun _ => hm.1, fun hp => by simp at hp, fun hp => by simp at hp⟩
  case maskInvalid ha => exact ⟨fun _ => ha.2.1.1, fun hp => by simp at hp, fun hp => by simp at hp⟩
  case maskNotSix ha hx => exact ⟨fun _ => ha.2.1.1, fun hp => by simp at hp, fun hp => by simp at hp⟩
  case maskNotFour ha hx => exact ⟨fun _ => ha.2.1.1, fun hp => by simp at hp, fun hp => by simp at hp⟩
  all_goals exact ⟨fun hp => by simp at hp, fun hp => by simp at hp, fun hp => by simp at hp⟩

/-! ### Cases -/

/-- The name "two" has two addresses, "odd" an answer of a wrong size, no other name has any. -/
def complaintEnv : ParseEnv :=
  { sampleEnv with
    getaddrinfo := fun node _ _ _ =>
      if node = "two".toList then
        .list [.inet sizeofIn 6 { family := AF_INET, port := 0, addr := #v[10, 0, 0, 1], zero := Vector.replicate 8 0 },
          .inet sizeofIn 17 { family := AF_INET, port := 0, addr := #v[10, 0, 0, 1], zero := Vector.replicate 8 0 },
          .inet sizeofIn 6 { family := AF_INET, port := 0, addr := #v[10, 0, 0, 2], zero := Vector.replicate 8 0 }]
      else if node = "odd".toList then
        .list [.inet 20 6 { family := AF_INET, port := 0, addr := #v[10, 0, 0, 1], zero := Vector.replicate 8 0 }, .other 1]
      else .error (-2) 11 }

/-- The messages of a parser made by the calls given, after it read a text. -/
def complaintsOf (calls : List ParserOp) (inp : String) : Str :=
  (Parser.parse complaintEnv inp.toList (ParserOp.runAll (calls.map fun o => (complaintEnv, o)) Parser.create)).1.errorMessages

-- Without lookups: each message about a piece of the text.
example : complaintsOf [.setAllow 5 false, .setAllow 2 true, .setAllow 9 true, .setAllow 6 true]
      "10.0.0.300,10.0.0.1:http,[::1,[::1]x,10.0.0.1/33,[::1]/129,10.0.0.1/99999,10.0.0.1/x,-"
    = ("Unknown address in \"10.0.0.300\" (no DNS lookup was allowed).\n"
      ++ "invalid port in \"http\" (no service name lookup allowed).\n"
      ++ "IPv6 is missing the ']' ([::1).\n"
      ++ "The IPv6 address \"[::1]x\" is followed by unknown data.\n"
      ++ "Unsupported mask size (33, expected 32 at the most for an IPv4).\n"
      ++ "Unsupported mask size (129, expected 128 at the most for an IPv6).\n"
      ++ "Mask size too large (99999, expected a maximum of 128).\n"
      ++ "Address like mask not allowed (/x), try with a simple number instead.\n"
      ++ "An address range requires at least one of the \"from\" or \"to\" addresses.\n").toList := by decide +kernel

-- Ports which are not allowed.
example : complaintsOf [.setAllow 5 false, .setAllow 2 true, .setAllow 7 false] "10.0.0.1:80,[::1]:80,host:80"
    = ("Port not allowed (10.0.0.1:80).\nPort not allowed ([::1]:80).\n"
      ++ "Found a port (\"80\") when it is not allowed.\n").toList := by decide +kernel

-- What is required.
example : complaintsOf [.setAllow 5 false, .setAllow 2 true, .setAllow 8 true, .setAllow 1 true] "10.0.0.1,:80"
    = "Required port is missing.\nRequired address is missing.\n".toList := by decide +kernel

-- With lookups.
example : complaintsOf [.setAllow 2 true, .setAllow 6 true] "one:80,two-,-two,odd"
    = ("Invalid address in \"one:80\" error -2 -- Name or service not known (errno: 11 -- Success).\n"
      ++ "The \"from\" of an address range must be exactly one address.\n"
      ++ "The \"to\" of an address range must be exactly one address.\n"
      ++ "Unsupported address size (20, expected16).\nUnsupported address family 1.\n").toList := by decide +kernel

-- Masks which are addresses.
example : complaintsOf [.setAllow 5 false, .setAllow 2 true, .setAllow 9 true, .setAllow 10 true]
      "10.0.0.1/[ff::],[::1]/ff.0,[::1]/[ff::,10.0.0.1/ff,10.0.0.1/odd,[::1]/[two]"
    = ("The address uses the IPv4 syntax, the mask cannot use IPv6.\n"
      ++ "The address uses the IPv6 syntax, the mask cannot use IPv4.\n"
      ++ "The IPv6 mask is missing the ']' ([ff::).\n"
      ++ "Invalid mask in \"/ff\", error -2 -- Name or service not known (errno: 11 -- Success).\n"
      ++ "Unsupported address size (20, expected16).\n"
      ++ "Incompatible address between the address and mask address (first was an IPv6 second an IPv4).\n").toList := by decide +kernel

/-- The name "six" has an IPv6 address. -/
def sixEnv : ParseEnv :=
  { sampleEnv with
    getaddrinfo := fun node _ _ _ =>
      if node = "six".toList then
        .list [.inet6 sizeofIn6 6 { family := AF_INET6, port := 0, flowinfo := 0, scope := 0, addr := #v[0, 0, 0, 0, 0, 0, 0, 0, 0, 0, 0, 0, 0, 0, 0, 1] }]
      else .error (-2) 0 }

/-- The full statement: an address is said to use the IPv6 syntax only in a text with a bracket, or with two colons. -/
def C128_claim : Prop :=
  ∀ (env : ParseEnv) (p : Parser) (inp : Str), p.errorMessages = [] →
    (Parser.parse env inp p).1.errorMessages = "The address uses the IPv6 syntax, the mask cannot use IPv4.\n".toList →
    '[' ∈ inp ∨ 2 ≤ inp.count ':'

/-- C128: the code does not do so: a name which has an IPv6 address is said to use the IPv6 syntax, when it has a mask of the IPv4
syntax. -/
theorem C128_claim_fails : ¬ C128_claim := fun h => by
  have h1 := h sixEnv (ParserOp.runAll [(sixEnv, .setAllow 9 true), (sixEnv, .setAllow 10 true)] Parser.create) "six/255.0.0.0".toList rfl
    (by decide +kernel)
  exact absurd h1 (by decide +kernel)

-- C128_unknown: the text which is reported is not an address.
example : Complaint sampleEnv sampleParser.config "10.0.0.300".toList
    ("Unknown address in \"".toList ++ "10.0.0.300".toList ++ "\" (no DNS lookup was allowed).".toList) :=
  .unknownAddress (by decide) (.inl ⟨by decide, List.infix_refl _⟩) fun ⟨b, h⟩ => by
    rcases h with ⟨b4, h, _⟩ | ⟨_, h⟩
    · exact absurd h (by rw [show Inet.pton4 (cstr "10.0.0.300".toList) = none by decide +kernel]; nofun)
    · exact absurd h (by rw [show Inet.pton6 (cstr "10.0.0.300".toList) = none by decide +kernel]; nofun)

end Verif
