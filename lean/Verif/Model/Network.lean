import Verif.Model.Config
/-!
# Text of network addresses

src/config/utilities.cpp, authority.cpp, endpoint.cpp, url.cpp. The text functions of boost::asio addresses are a parameter (`Asio`); its networks (`hosts`) are
modelled by what Boost documents. A regular expression that matches a whole word is modelled by a function that takes the word apart from the left; the
expressions are such that no other way to match exists (`C86_endpoint`, `C86_url`, `C86_authority` state the languages). Scope identifiers of IPv6 addresses
are left out.
-/
namespace Verif.Network
open Verif
open Verif.Radix (ascii)
open Verif.Config (word serialize deserialize deserialize8)
open Verif.ScriptText (toLower)

/-- `asio::address`: the number of an IPv4 or IPv6 address. -/
inductive Address where
  | v4 (n : UInt32)
  | v6 (n : BitVec 128)
  deriving DecidableEq

/-- `address_v4::to_string`, `address_v6::to_string`, `make_address` (`none`: it throws). -/
structure Asio where
  text4 : UInt32 → Bytes
  text6 : BitVec 128 → Bytes
  make : Bytes → Option Address

/-- `is_v4_mapped`: the first ten bytes are zero and two are 0xff. -/
def isMapped (n : BitVec 128) : Bool := n.toNat / 2 ^ 32 == 0xffff

/-- `denormalize` and `to_v4` (src/config/utilities.cpp:158-200). -/
def denormalize : Address → Address
  | .v6 n => if isMapped n then .v4 (UInt32.ofNat (n.toNat % 2 ^ 32)) else .v6 n
  | .v4 n => .v4 n

/-- `to_host` (utilities.cpp:205-245). -/
def toHost (A : Asio) (ip : Address) : Bytes :=
  match denormalize ip with
  | .v4 n => A.text4 n
  | .v6 n => A.text6 n

/-- `to_literal` (utilities.cpp:247-252). -/
def toLiteral (A : Asio) (ip : Address) : Bytes :=
  let host := toHost A ip
  if host.contains 58 then ascii "[" ++ host ++ ascii "]" else host

/-! ### Regular expressions -/

/-- The characters of `IPV4`, `IPV6`, `HOST` (utilities.cpp:74-76). -/
def isV4 (c : UInt8) : Bool := Base10.isDigit c || c == 46
/-- As above, utilities.cpp:74-76. -/
def isV6 (c : UInt8) : Bool := Base10.isDigit c || (97 ≤ c && c ≤ 102) || c == 58
/-- As above, utilities.cpp:74-76. -/
def isName (c : UInt8) : Bool := !(c == 58 || c == 63 || c == 47 || c == 92)

/-- A character in `[1-9]`. -/
def isNonzero (c : UInt8) : Bool := 49 ≤ c && c ≤ 57

/-- `(PORT)?` or `(CIDR)?` (utilities.cpp:77-78): a mark and `[1-9][0-9]{0,more}`, or nothing: the digits and what follows. -/
def optNumber (mark : UInt8) (more : Nat) (s : Bytes) : Option (Bytes × Bytes) :=
  match s with
  | [] => some ([], [])
  | c :: s =>
    if c = mark then
      let digits := s.takeWhile Base10.isDigit
      match digits with
      | [] => none
      | d :: l => if isNonzero d && decide (l.length ≤ more) then some (digits, s.drop digits.length) else none
    else some ([], c :: s)

/-- `to_integer` (utilities.cpp:32-43). -/
def toInteger (read : Bytes → Option Nat) (s : Bytes) : Option Nat := if s = [] then some 0 else read s

/-- `IPV6` with its brackets: the match and what follows. -/
def bracketed (s : Bytes) : Option (Bytes × Bytes) :=
  if s.head? = some 91 then
    let body := (s.drop 1).takeWhile isV6
    let rest := (s.drop 1).drop body.length
    if body ≠ [] ∧ rest.head? = some 93 then some (ascii "[" ++ body ++ ascii "]", rest.drop 1) else none
  else none

/-- `(IPV4|IPV6)`. -/
def literal (s : Bytes) : Option (Bytes × Bytes) :=
  match bracketed s with
  | some r => some r
  | none => let body := s.takeWhile isV4; if body = [] then none else some (body, s.drop body.length)

/-- `HOST` (utilities.cpp:74-76). -/
def named (s : Bytes) : Option (Bytes × Bytes) := let body := s.takeWhile isName; if body = [] then none else some (body, s.drop body.length)

/-- `trim_copy(host, { "[", "]" })`. Used for utilities.cpp:52-66. -/
def unbracket (s : Bytes) : Bytes :=
  let p : UInt8 → Bool := fun c => c == 91 || c == 93
  ((s.dropWhile p).reverse.dropWhile p).reverse

/-- `make_address` (utilities.cpp:52-66). -/
def makeAddress (A : Asio) (s : Bytes) : Option Address := A.make (unbracket s)

/-- `parse_host`, `from_host` (utilities.cpp:84-96, 254-262). -/
def parseHost (A : Asio) (s : Bytes) : Option Address :=
  match literal s with
  | some (host, []) => makeAddress A host
  | _ => none

/-! ### Authorities -/

/-- `config::authority`. Used for authority.cpp:46-52. -/
structure Authority where
  ip : Address
  port : Nat
  cidr : Nat
  deriving DecidableEq

/-- `authority(ip, port, cidr)` (src/config/authority.cpp:46-52). -/
def Authority.make (ip : Address) (port cidr : Nat) : Authority := ⟨denormalize ip, port, cidr⟩

/-- The largest prefix of an address. Used for utilities.cpp:111-116. -/
def maxPrefix : Address → Nat
  | .v4 _ => 32
  | .v6 _ => 128

/-- The tests after the match (utilities.cpp:111-116). -/
def authorityOf (A : Asio) (host port cidr : Bytes) : Option Authority :=
  match makeAddress A host, toInteger (deserialize (2 ^ 16)) port, toInteger deserialize8 cidr with
  | some ip, some p, some c => if c ≤ maxPrefix ip then some ⟨ip, p, c⟩ else none
  | _, _, _ => none

/-- `parse_authority` (utilities.cpp:98-117). -/
def parseAuthority (A : Asio) (s : Bytes) : Option Authority :=
  (literal s).bind fun h => (optNumber 58 4 h.2).bind fun p => (optNumber 47 2 p.2).bind fun c =>
    if c.2 = [] then authorityOf A h.1 p.1 c.1 else none

/-- `operator>>` (authority.cpp:134-145). -/
def Authority.read (A : Asio) (s : Bytes) : Option Authority := parseAuthority A (word s)

/-- A mark and a number that is not zero. Used for authority.cpp:95-102, 147-158. -/
def optText (mark : Bytes) (n : Nat) : Bytes := if n ≠ 0 then mark ++ serialize n else []

/-- `operator<<`, `to_string` (authority.cpp:95-102, 147-158). -/
def Authority.write (A : Asio) (a : Authority) : Bytes := toLiteral A a.ip ++ optText (ascii ":") a.port ++ optText (ascii "/") a.cidr

/-- `is_member_v4` (utilities.cpp:267-272) with `network_v4::hosts` of Boost: the address for a prefix of 32, otherwise the addresses strictly between the
first and the last of the network. A range ends before its end and an end above the maximum is zero. -/
def isMember4 (ip net : UInt32) (cidr : Nat) : Bool :=
  if cidr > 32 then false
  else if cidr = 32 then decide (net.toNat ≤ ip.toNat ∧ ip.toNat < (net.toNat + 1) % 2 ^ 32)
  else
    let size := 2 ^ (32 - cidr)
    let first := net.toNat / size * size
    decide ((first + 1) % 2 ^ 32 ≤ ip.toNat ∧ ip.toNat < first + (size - 1))

/-- `is_member_v6` (utilities.cpp:274-279) with `network_v6::hosts` of Boost: from the first address to the last. -/
def isMember6 (ip net : BitVec 128) (cidr : Nat) : Bool :=
  if cidr > 128 then false
  else
    let size := 2 ^ (128 - cidr)
    let first := net.toNat / size * size
    decide (first ≤ ip.toNat ∧ ip.toNat < (first + size) % 2 ^ 128)

/-- `is_member` (utilities.cpp:281-298). -/
def isMember (ip subnet : Address) (cidr : Nat) : Bool :=
  match ip, subnet with
  | .v4 a, .v4 b => isMember4 a b cidr
  | .v6 a, .v6 b => isMember6 a b cidr
  | _, _ => false

/-- `operator==` (authority.cpp:107-127). -/
def Authority.eqv (a b : Authority) : Bool :=
  if (a.port ≠ 0 ∧ b.port ≠ 0) ∧ a.port ≠ b.port then false
  else if (a.cidr ≠ 0 ∧ b.cidr ≠ 0) ∧ a.cidr ≠ b.cidr then false
  else if a.cidr = b.cidr then decide (a.ip = b.ip)
  else if a.cidr = 0 then isMember a.ip b.ip b.cidr else isMember b.ip a.ip a.cidr

/-! ### Endpoints -/

/-- `config::endpoint`. Used for utilities.cpp:136-150. -/
structure Endpoint where
  host : Bytes
  port : Nat
  deriving DecidableEq

/-- `(PORT)?$` after a host: the matches (utilities.cpp:73-76). -/
def hostPort (h : Bytes × Bytes) : Option (Bytes × Bytes) := (optNumber 58 4 h.2).bind fun p => if p.2 = [] then some (h.1, p.1) else none

/-- `^(IPV4|IPV6|HOST)(PORT)?$`: the host and the port; if one alternative cannot be completed the next is tried. -/
def matchEndpoint (s : Bytes) : Option (Bytes × Bytes) :=
  match (bracketed s).bind hostPort with
  | some r => some r
  | none => (named s).bind hostPort

/-- `parse_endpoint` (utilities.cpp:136-150). -/
def parseEndpoint (s : Bytes) : Option Endpoint :=
  (matchEndpoint s).bind fun r => (toInteger (deserialize (2 ^ 16)) r.2).map fun n => ⟨r.1, n⟩

/-- `operator>>` (src/config/endpoint.cpp:114-123). -/
def Endpoint.read (s : Bytes) : Option Endpoint := parseEndpoint (word s)

/-- `to_string` (endpoint.cpp:89-93). -/
def Endpoint.text (e : Endpoint) (default : Nat) : Bytes :=
  let value := if e.port = 0 then default else e.port
  if value = 0 then e.host else e.host ++ ascii ":" ++ serialize value
/-- `operator<<` (endpoint.cpp:125-132). -/
def Endpoint.write (e : Endpoint) : Bytes := e.text 0
/-- `to_lower` (endpoint.cpp:95-98). -/
def Endpoint.lower (e : Endpoint) (default : Nat) : Bytes := toLower (e.text default)
/-- `endpoint(authority)` (endpoint.cpp:57-65). -/
def Endpoint.ofAuthority (A : Asio) (a : Authority) : Endpoint := ⟨toLiteral A a.ip, a.port⟩
/-- `to_local` (endpoint.cpp:83-87). -/
def Endpoint.local (e : Endpoint) : Endpoint := ⟨if e.host = ascii "*" then ascii "localhost" else e.host, e.port⟩

/-! ### URLs -/

/-- `config::url`. Used for utilities.cpp:119-134. -/
structure Url where
  scheme : Bytes
  host : Bytes
  port : Nat
  deriving DecidableEq

/-- The alternatives of `SCHEME` (utilities.cpp:73). -/
def schemes : List Bytes := [ascii "tcp", ascii "udp", ascii "http", ascii "https", ascii "inproc"]

/-- `(SCHEME)?`: the scheme and what follows. Used for utilities.cpp:119-134. -/
def optScheme (s : Bytes) : Bytes × Bytes :=
  match schemes.find? fun k => (k ++ ascii "://").isPrefixOf s with
  | some k => (k, s.drop (k.length + 3))
  | none => ([], s)

/-- `parse_url` (utilities.cpp:119-134). -/
def parseUrl (s : Bytes) : Option Url :=
  (parseEndpoint (optScheme s).2).map fun e => ⟨(optScheme s).1, e.host, e.port⟩

/-- `operator>>` (src/config/url.cpp:128-138). -/
def Url.read (s : Bytes) : Option Url := parseUrl (word s)
/-- `operator<<`, `to_uri` (url.cpp:92-99, 140-150). -/
def Url.write (u : Url) : Bytes :=
  (if u.scheme = [] then [] else u.scheme ++ ascii "://") ++ u.host ++ (if u.port = 0 then [] else ascii ":" ++ serialize u.port)
/-- `url(authority)` (url.cpp:61-69): the host has no brackets. -/
def Url.ofAuthority (A : Asio) (a : Authority) : Url := ⟨[], toHost A a.ip, a.port⟩

end Verif.Network
