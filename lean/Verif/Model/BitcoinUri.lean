import Verif.Model.Mnemonic
import Verif.Model.Base10
import Verif.Model.Wallet
import Verif.Model.Stealth
/-!
# Bitcoin URIs

Sources: src/wallet/addresses/bitcoin_uri.cpp, include/bitcoin/system/wallet/addresses/uri_reader.hpp, src/wallet/addresses/uri.cpp. The
parsing and the escaping of URIs are Boost.URL's: here a parameter (`Urls`), of which Spec/BitcoinUri states what is relied upon.
-/
namespace Verif.Uri
open Verif

/-- `std::map<std::string, std::string>`: the pairs in the order of the keys. Used for bitcoin_uri.hpp:88-91. -/
abbrev Query := List (Bytes × Bytes)

/-- `map[key] = value`. Used for bitcoin_uri.cpp:120-124. -/
def Query.set : Query → Bytes → Bytes → Query
  | [], key, value => [(key, value)]
  | (k, v) :: rest, key, value =>
    if Mnemonic.strLt key k then (key, value) :: (k, v) :: rest
    else if k = key then (key, value) :: rest
    else (k, v) :: Query.set rest key value

/-- `map.find(key)`. Used for bitcoin_uri.cpp:106-110. -/
def Query.get (q : Query) (key : Bytes) : Option Bytes := (List.find? (fun p => p.1 == key) q).map (·.2)

/-- The components of a URI as read by `uri` (uri.cpp:31-217): the scheme as written, the decoded path, parameters and fragment. -/
structure Parts where
  scheme : Bytes
  authority : Option Bytes
  path : Bytes
  params : List (Bytes × Bytes)
  fragment : Option Bytes

/-- Boost.URL: `parse_uri_reference` with the accessors (uri.cpp:31-51), and the text of an URL with a scheme, a path and
parameters set (uri.cpp:53-59). -/
structure Urls where
  parse : Bytes → Option Parts
  build : Bytes → Bytes → List (Bytes × Bytes) → Bytes

/-- `bitcoin_uri` (include/bitcoin/system/wallet/addresses/bitcoin_uri.hpp:88-91); `==` compares the three members (bitcoin_uri.cpp:243-247). -/
structure BitcoinUri where
  scheme : Bytes
  address : Bytes
  query : Query
  deriving DecidableEq

/-- `bitcoin_uri()` (bitcoin_uri.cpp:40-42). -/
def BitcoinUri.empty : BitcoinUri := ⟨[], [], []⟩
/-- `operator bool` (bitcoin_uri.cpp:52-56). -/
def BitcoinUri.valid (u : BitcoinUri) : Bool := !u.address.isEmpty || !u.query.isEmpty || !u.scheme.isEmpty

/-- As above, bitcoin_uri.cpp:52-56. -/
def bitcoin : Bytes := Radix.ascii "bitcoin"
/-- As above, bitcoin_uri.cpp:52-56. -/
def amountKey : Bytes := Radix.ascii "amount"
/-- As above, bitcoin_uri.cpp:52-56. -/
def labelKey : Bytes := Radix.ascii "label"
/-- As above, bitcoin_uri.cpp:52-56. -/
def messageKey : Bytes := Radix.ascii "message"
/-- As above, bitcoin_uri.cpp:52-56. -/
def rKey : Bytes := Radix.ascii "r"

/-- `parameter` (bitcoin_uri.cpp:106-110). -/
def BitcoinUri.parameter (u : BitcoinUri) (key : Bytes) : Bytes := (u.query.get key).getD []
/-- `amount` (bitcoin_uri.cpp:74-79); `none` is the indeterminate value left by a decoding that fails. -/
def BitcoinUri.amount (u : BitcoinUri) : Option Nat := Base10.decode (u.parameter amountKey) 8 false

/-- `set_amount(satoshis)` (bitcoin_uri.cpp:120-124). -/
def BitcoinUri.setAmount (u : BitcoinUri) (n : Nat) : BitcoinUri := { u with query := u.query.set amountKey (Base10.encode n 8) }
/-- `set_label` (bitcoin_uri.cpp:126-129). -/
def BitcoinUri.setLabel (u : BitcoinUri) (s : Bytes) : BitcoinUri := { u with query := u.query.set labelKey s }
/-- `set_message` (bitcoin_uri.cpp:131-134). -/
def BitcoinUri.setMessage (u : BitcoinUri) (s : Bytes) : BitcoinUri := { u with query := u.query.set messageKey s }
/-- `set_r` (bitcoin_uri.cpp:136-139). -/
def BitcoinUri.setR (u : BitcoinUri) (s : Bytes) : BitcoinUri := { u with query := u.query.set rKey s }

section
variable (b : Sha.Build)

/-- Whether `payment_address(address)` or `stealth_address(address)` is valid (bitcoin_uri.cpp:143-155). -/
def isAddress (text : Bytes) : Bool :=
  (Wallet.Address.fromString b text).valid b || ((Stealth.Address.fromString b text).map fun a => a.valid).getD false

/-- `set_address(text)` (bitcoin_uri.cpp:141-158). -/
def BitcoinUri.setAddress (u : BitcoinUri) (text : Bytes) : Option BitcoinUri :=
  if isAddress b text then some { u with address := text } else none
/-- `set_address(payment)` (bitcoin_uri.cpp:160-163). -/
def BitcoinUri.setPayment (u : BitcoinUri) (a : Wallet.Address) : BitcoinUri := { u with address := a.encoded }
/-- `set_address(stealth)` (bitcoin_uri.cpp:165-168). -/
def BitcoinUri.setStealth (u : BitcoinUri) (a : Stealth.Address) : BitcoinUri := { u with address := a.encoded b }

/-- `set_amount(text)` (bitcoin_uri.cpp:170-179). -/
def BitcoinUri.setAmountText (u : BitcoinUri) (s : Bytes) : Option BitcoinUri :=
  (Base10.decode s 8 true).map u.setAmount

/-- `set_scheme` (bitcoin_uri.cpp:184-193). -/
def BitcoinUri.setScheme (u : BitcoinUri) (s : Bytes) : Option BitcoinUri :=
  if s = bitcoin then some { u with scheme := s } else none
/-- `set_path` (bitcoin_uri.cpp:202-206), also `set_authority` (195-200). -/
def BitcoinUri.setPath (u : BitcoinUri) (s : Bytes) : Option BitcoinUri :=
  if u.address.isEmpty then u.setAddress b s else none

/-- `set_parameter` (bitcoin_uri.cpp:213-233). -/
def BitcoinUri.setParameter (u : BitcoinUri) (key value : Bytes) : Option BitcoinUri :=
  if key = amountKey then u.setAmountText value
  else
    let u := if key = labelKey then u.setLabel value
      else if key = messageKey then u.setMessage value
      else if key = rKey then u.setR value else u
    if key.take 4 = Radix.ascii "req-" then none else some u

/-- The loop over the decoded query (uri_reader.hpp:61-68). -/
def setAll : List (Bytes × Bytes) → BitcoinUri → Option BitcoinUri
  | [], u => some u
  | (k, v) :: rest, u => if k.isEmpty then setAll rest u else (u.setParameter k v).bind (setAll rest)

/-- `decode_query` (uri.cpp:206-217): the last value of a key wins. -/
def decodeQuery (params : List (Bytes × Bytes)) : Query := params.foldl (fun q p => q.set p.1 p.2) []

/-- The authority, if there is one (uri_reader.hpp:52-53). -/
def authorityStep (parts : Parts) (u : BitcoinUri) : Option BitcoinUri :=
  match parts.authority with
  | some a => u.setPath b a
  | none => some u
/-- The path, unless it is empty (uri_reader.hpp:55-56). -/
def pathStep (parts : Parts) (u : BitcoinUri) : Option BitcoinUri :=
  if parts.path.isEmpty then some u else u.setPath b parts.path
/-- A fragment is refused (uri_reader.hpp:58-59; bitcoin_uri.cpp:208-211). -/
def fragmentStep (parts : Parts) (u : BitcoinUri) : Option BitcoinUri :=
  if parts.fragment.isSome then none else some u

/-- `uri_reader::parse` (uri_reader.hpp:41-71) with `uri::decode` (uri.cpp:31-51) and `scheme` (61-67), which is in lower case. A
`none` stands for the default instance. -/
def parse (urls : Urls) (text : Bytes) : Option BitcoinUri :=
  if text.isEmpty then none else
  (urls.parse text).bind fun parts =>
  (BitcoinUri.empty.setScheme (parts.scheme.map fun c => if 65 ≤ c ∧ c ≤ 90 then c + 32 else c)).bind fun u =>
  (authorityStep b parts u).bind fun u =>
  (pathStep b parts u).bind fun u =>
  (fragmentStep parts u).bind fun u =>
  setAll (decodeQuery parts.params) u

/-- `bitcoin_uri(text)` (bitcoin_uri.cpp:44-47). -/
def ofText (urls : Urls) (text : Bytes) : BitcoinUri := (parse b urls text).getD .empty
end

/-- `encoded` (bitcoin_uri.cpp:61-69) with `encode_query` (uri.cpp:219-228). -/
def BitcoinUri.encoded (urls : Urls) (u : BitcoinUri) : Bytes := urls.build bitcoin u.address u.query

end Verif.Uri
