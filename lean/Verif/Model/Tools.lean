import Verif.Model.Iface
import Verif.Model.AddrText

/-!
# Model of the tools: `tools/validate_ip.cpp`, `tools/ifaces.cpp` and `tools/ipv4_routes.cpp`

What a tool writes is kept with the result, since it remains written when an exception follows. The command line of
`validate-ip` is read by the library advgetopt: the values of its options are the parameters. The help screens and the version
are left out.
-/

namespace Verif

namespace Tools

/-- What a process has written so far. -/
structure Output where
  out : Str
  err : Str
  deriving DecidableEq

/-- Nothing was written. -/
def Output.empty : Output := { out := [], err := [] }

/-- Write to `std::cout`. -/
def print (s : Str) : SM Output Unit := fun o => ({ o with out := o.out ++ s }, .ok ())

/-- Write to `std::cerr`. -/
def complain (s : Str) : SM Output Unit := fun o => ({ o with err := o.err ++ s }, .ok ())

/-- A computation which writes nothing. -/
def lift {α : Type} (r : Res α) : SM Output α := fun o => (o, r)

/-- `std::left << std::setw(n) << s`. -/
def setw (n : Nat) (s : Str) : Str := s ++ List.replicate (n - s.length) ' '

/-! ### validate-ip -/

/-- The options of `validate-ip`, validate_ip.cpp:94-187. -/
structure ValidateOptions where
  addresses : List Str
  canonicalize : Bool := false
  address : Bool := false
  defaultAddress : Str := "127.0.0.1,::".toList
  defaultPort : Int := 60000
  list : Bool := false
  mask : Bool := false
  port : Bool := false
  protocol : Str := "tcp".toList
  quiet : Bool := false

/-- The value of `--default-address`, validate_ip.cpp:270-280. -/
def setDefaultAddresses (value : Str) : PM Unit :=
  match Parser.splitFirst ',' value with
  | none => Parser.setDefaultAddress value
  | some (first, second) => do
    Parser.setDefaultAddress first
    Parser.setDefaultAddress second

/-- What is allowed, validate_ip.cpp:289-308. -/
def setAllows (o : ValidateOptions) : PM Unit := do
  Parser.setAllow 0 true
  Parser.setAllow 7 true
  if o.address then Parser.setAllow 1 true
  if o.port then Parser.setAllow 8 true
  if o.mask then Parser.setAllow 9 true
  if o.list then
    Parser.setAllow 2 true
    Parser.setAllow 3 true

/-- The setup of the parser, validate_ip.cpp:266-308. `get_long()` returns a `long` which becomes an `int`. -/
def configure (env : ParseEnv) (o : ValidateOptions) : PM Unit := do
  Parser.setDefaultAddress "127.0.0.1".toList
  Parser.setDefaultAddress "::".toList
  setDefaultAddresses o.defaultAddress
  Parser.setDefaultPort (Addr.toCInt o.defaultPort)
  Parser.setDefaultMask env "255.255.255.255".toList
  Parser.setDefaultMask env "FF:FF:FF:FF:FF:FF:FF:FF".toList
  Parser.setProtocolStr env o.protocol
  setAllows o

/-- One range of the canonical output, validate_ip.cpp:332-352. -/
def canonicalRange (db : NetDb) (r : Range) : SM Output Unit :=
  if r.isRange then
    SM.bind (lift (r.lo.toIpv4or6String db STRING_IP_ALL)) fun s =>
    SM.bind (print (s ++ " .. ".toList)) fun _ =>
    SM.bind (lift (r.hi.toIpv4or6String db STRING_IP_ALL)) fun t => print (t ++ ['\n'])
  else if r.hasFrom then SM.bind (lift (r.lo.toIpv4or6String db STRING_IP_ALL)) fun s => print (s ++ ['\n'])
  else if r.hasTo then SM.bind (lift (r.hi.toIpv4or6String db STRING_IP_ALL)) fun s => print (s ++ ['\n'])
  else lift (.throw .invalidStructure)

/-- The loop of validate_ip.cpp:330-353. -/
def canonicalLoop (db : NetDb) : List Range → SM Output Unit
  | [] => SM.pure ()
  | r :: l => SM.bind (canonicalRange db r) fun _ => canonicalLoop db l

/-- What is written about an address with errors, validate_ip.cpp:317-325. -/
def complaint (a : Str) (p : Parser) : Str :=
  "address \"".toList ++ a ++ "\" generated ".toList ++ intStr p.getErrorCount ++ " error".toList
    ++ (if p.getErrorCount = 1 then [] else ['s']) ++ ": ".toList ++ p.errorMessages ++ ['\n']

/-- One address of the command line, validate_ip.cpp:264-354: the errors to add to `f_error_count`. -/
def validateOne (env : ParseEnv) (db : NetDb) (o : ValidateOptions) (a : Str) : SM Output Int :=
  match (do configure env o; Parser.parse env a : PM (List Range)) Parser.create with
  | (_, .throw e) => lift (.throw e)
  | (_, .ub w) => lift (.ub w)
  | (p, .ok ranges) =>
    if p.hasErrors then
      SM.bind (if o.quiet then SM.pure () else complain (complaint a p)) fun _ => SM.pure p.getErrorCount
    else if o.canonicalize then SM.bind (canonicalLoop db ranges) fun _ => SM.pure 0
    else SM.pure 0

/-- `validate_ip::run()`, validate_ip.cpp:259-356, with what it adds to `f_error_count`. The `int` is an integer here: it takes 2^31 errors to overflow. -/
def validateRun (env : ParseEnv) (db : NetDb) (o : ValidateOptions) : List Str → SM Output Int
  | [] => SM.pure 0
  | a :: l => SM.bind (validateOne env db o a) fun n => SM.bind (validateRun env db o l) fun m => SM.pure (n + m)

/-- The text of `e.what()` is left out. -/
def exceptionText : Str := "error: an error occurred: ".toList

/-- `main()`, validate_ip.cpp:372-390: the output and the exit status. -/
def validateMain (env : ParseEnv) (db : NetDb) (o : ValidateOptions) : Output × Res Int :=
  match validateRun env db o o.addresses Output.empty with
  | (w, .ok n) => (w, .ok (if n ≠ 0 then 1 else 0))
  | (w, .throw _) => ({ w with err := w.err ++ exceptionText }, .ok 1)
  | (w, .ub u) => (w, .ub u)

/-! ### ifaces -/

/-- `filter_t`, ifaces.cpp:55-62. -/
inductive Filter
  | all | pub | priv | loopback | default
  deriving DecidableEq

/-- The global variables, ifaces.cpp:64-67. -/
structure IfacesOptions where
  filter : Filter := .all
  hideHeaders : Bool := false
  asterisk : Bool := false
  nameOnly : Bool := false
  deriving DecidableEq

/-- The command line of `ifaces`, ifaces.cpp:73-136. The result is the exit status where the tool stops at once. -/
def ifacesArgs : List Str → IfacesOptions → IfacesOptions ⊕ (Output × Int)
  | [], o => .inl o
  | a :: l, o =>
    if a = "-h".toList ∨ a = "--help".toList then .inr (.empty, 1)
    else if a = "--hide-headers".toList then ifacesArgs l { o with hideHeaders := true }
    else if a = "-d".toList ∨ a = "--default".toList then ifacesArgs l { o with filter := .default }
    else if a = "--public".toList then ifacesArgs l { o with filter := .pub }
    else if a = "--private".toList then ifacesArgs l { o with filter := .priv }
    else if a = "--loopback".toList then ifacesArgs l { o with filter := .loopback }
    else if a = "--asterisk".toList then ifacesArgs l { o with asterisk := true }
    else if a = "--name-only".toList then ifacesArgs l { o with nameOnly := true }
    else if a = "-V".toList ∨ a = "--version".toList then .inr (.empty, 0)
    else .inr ({ out := [], err := "error: unknown command line option \"".toList ++ a
      ++ "\". Try --help for additional info.\n".toList }, 1)

/-- What is outside of `ifaces`: the interfaces (`none` when `getifaddrs()` fails), the content of `/proc/net/route`, the
databases and the names which `getnameinfo()` finds (empty when there is none). -/
structure IfacesEnv where
  interfaces : Option (List Iface)
  routes : Str
  db : NetDb
  nameOf : Addr → Str

/-- The headers, ifaces.cpp:149-154. -/
def ifacesHeaders : Str :=
  "Iface            Flags Address                                  Broadcast                                Destination                              \n".toList

/-- The loop which searches the default interface, ifaces.cpp:166-172: the last one counts. -/
def defaultInterface : List Route → (found : Str) → Str
  | [], found => found
  | r :: l, found => defaultInterface l (if r.destination.isDefault then r.interfaceName else found)

/-- The `switch` of ifaces.cpp:179-213: is the interface kept? -/
def keeps (env : IfacesEnv) (o : IfacesOptions) (defaultName : Str) (i : Iface) : Bool :=
  match o.filter with
  | .all => true
  | .pub => i.address.getNetworkType.2 = .unknown
  | .priv => i.address.getNetworkType.2 = .priv
  | .loopback => i.address.getNetworkType.2 = .loopback
  | .default => env.nameOf i.address = defaultName

/-- The `mode` of ifaces.cpp:233-235. -/
def ifacesMode (o : IfacesOptions) (a : Addr) : BitVec 32 :=
  STRING_IP_ADDRESS ||| (if o.asterisk then STRING_IP_DEFAULT_AS_ASTERISK else 0)
    ||| (if a.isIpv4 then STRING_IP_DEFAULT_AS_IPV4 else 0)

/-- One line of `ifaces`, ifaces.cpp:229-243. The flags are an `unsigned int`. -/
def ifacesLine (db : NetDb) (o : IfacesOptions) (i : Iface) : Res Str :=
  i.address.toIpv4or6String db STRING_IP_ADDRESS >>= fun a =>
  i.broadcast.toIpv4or6String db (ifacesMode o i.address) >>= fun b =>
  i.destination.toIpv4or6String db (ifacesMode o i.address) >>= fun d =>
  .ok (setw 17 i.name ++ setw 6 (Inet.decStr i.flags.toNat) ++ setw 41 a ++ setw 41 b ++ setw 41 d ++ ['\n'])

/-- The loop of ifaces.cpp:176-245; `found` is the set of the names printed. -/
def ifacesLoop (env : IfacesEnv) (o : IfacesOptions) (defaultName : Str) : List Iface → (found : List Str) → SM Output Unit
  | [], _ => SM.pure ()
  | i :: l, found =>
    if !keeps env o defaultName i then ifacesLoop env o defaultName l found
    else if o.nameOnly then
      if i.name ∈ found then ifacesLoop env o defaultName l found
      else SM.bind (print (i.name ++ ['\n'])) fun _ => ifacesLoop env o defaultName l (i.name :: found)
    else SM.bind (lift (ifacesLine env.db o i)) fun s => SM.bind (print s) fun _ => ifacesLoop env o defaultName l found

/-- `main()` after the command line, ifaces.cpp:138-247. -/
def ifacesRun (env : IfacesEnv) (o : IfacesOptions) : SM Output Int :=
  match env.interfaces with
  | none => lift (.ub .nullDereference)
  | some [] => SM.bind (complain "error: no interfaces found, is your network up?\n".toList) fun _ => SM.pure 1
  | some l =>
    SM.bind (if !o.hideHeaders && !o.nameOnly then print ifacesHeaders else SM.pure ()) fun _ =>
    if o.filter = .default then
      SM.bind (lift (Route.getIpv4Routes env.routes)) fun routes =>
      if routes = [] then SM.bind (complain "error: unknown default route.\n".toList) fun _ => SM.pure 1
      else SM.bind (ifacesLoop env o (defaultInterface routes []) l []) fun _ => SM.pure 0
    else SM.bind (ifacesLoop env o [] l []) fun _ => SM.pure 0

/-- `main()` of ifaces.cpp:71-248. -/
def ifacesMain (env : IfacesEnv) (args : List Str) : Output × Res Int :=
  match ifacesArgs args {} with
  | .inl o => ifacesRun env o .empty
  | .inr (w, n) => (w, .ok n)

/-! ### ipv4-routes -/

/-- The global variables, ipv4_routes.cpp:52-53. -/
structure RoutesOptions where
  showDefault : Bool := false
  hideHeaders : Bool := false
  deriving DecidableEq

/-- The headers, ipv4_routes.cpp:102-113. -/
def routesHeaders : Str :=
  "Iface   Destination     Gateway         Flags   RefCnt  Use     Metric  Mask            MTU     Window  IRTT    \n".toList

/-- The columns of a line and their widths, ipv4_routes.cpp:121-138. -/
def routeColumns (db : NetDb) (r : Route) : Res (List (Nat × Str)) :=
  r.destination.toIpv4or6String db STRING_IP_ADDRESS >>= fun d =>
  r.gateway.toIpv4or6String db STRING_IP_ADDRESS >>= fun g =>
  .ok [(8, r.interfaceName), (16, d), (16, g), (8, r.flagsToString), (8, intStr r.referenceCount), (8, intStr r.use),
    (8, intStr r.metric), (16, Inet.ntop4 #v[r.destination.mask[12], r.destination.mask[13], r.destination.mask[14],
    r.destination.mask[15]]), (8, intStr r.mtu), (8, intStr r.window), (8, intStr r.irtt)]

/-- One line, ipv4_routes.cpp:121-139. -/
def routeLine (db : NetDb) (r : Route) : Res Str :=
  routeColumns db r >>= fun l => .ok ((l.flatMap fun x => setw x.1 x.2) ++ ['\n'])

/-- The loop of ipv4_routes.cpp:116-141. -/
def routesLoop (db : NetDb) (o : RoutesOptions) : List Route → SM Output Unit
  | [] => SM.pure ()
  | r :: l =>
    if !o.showDefault || r.destination.isDefault then
      SM.bind (lift (routeLine db r)) fun s => SM.bind (print s) fun _ => routesLoop db o l
    else routesLoop db o l

/-- `main()` after the command line, ipv4_routes.cpp:91-143. -/
def routesRun (db : NetDb) (file : Str) (o : RoutesOptions) : SM Output Int :=
  SM.bind (lift (Route.getIpv4Routes file)) fun routes =>
  if routes = [] then SM.bind (complain "error: no routes found, is your network up?\n".toList) fun _ => SM.pure 1
  else
    SM.bind (if !o.hideHeaders then print routesHeaders else SM.pure ()) fun _ =>
    SM.bind (routesLoop db o routes) fun _ => SM.pure 0

/-- The command line of `ipv4-routes`, ipv4_routes.cpp:59-89. The result is the exit status where the tool stops at once. -/
def routesArgs : List Str → RoutesOptions → RoutesOptions ⊕ (Output × Int)
  | [], o => .inl o
  | a :: l, o =>
    if a = "-h".toList ∨ a = "--help".toList then .inr (.empty, 1)
    else if a = "-d".toList ∨ a = "--default".toList then routesArgs l { o with showDefault := true }
    else if a = "--hide-headers".toList then routesArgs l { o with hideHeaders := true }
    else .inr ({ out := [], err := "error: unknown command line option \"".toList ++ a
      ++ "\". Try --help for additional info.\n".toList }, 1)

/-- `main()` of ipv4_routes.cpp:57-144. -/
def routesMain (db : NetDb) (file : Str) (args : List Str) : Output × Res Int :=
  match routesArgs args {} with
  | .inl o => routesRun db file o .empty
  | .inr (w, n) => (w, .ok n)

end Tools

end Verif
