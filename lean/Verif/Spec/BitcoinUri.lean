import Verif.Model.BitcoinUri
import Verif.Spec.Wallet
import Verif.Props.Binary
/-!
# What is relied upon of Boost.URL, and the vocabulary of C45
-/
namespace Verif.Uri
open Verif

/-- An ASCII letter or digit: written in a path as it is. -/
def Alphanumeric (c : UInt8) : Prop := 48 ≤ c ∧ c ≤ 57 ∨ 65 ≤ c ∧ c ≤ 90 ∨ 97 ≤ c ∧ c ≤ 122

/-- Relied upon of Boost.URL: an URL built of the scheme `bitcoin`, a path of letters and digits and parameters with a key is not
empty, and reads back as these components, whatever the values of the parameters are (spaces, `&`, `=`, `#`, `%`, UTF-8 and so on are
escaped). -/
structure Urls.Faithful (urls : Urls) : Prop where
  nonempty : ∀ path params, urls.build bitcoin path params ≠ []
  reads : ∀ path params, (∀ c ∈ path, Alphanumeric c) → (∀ p ∈ params, p.1 ≠ ([] : Bytes)) →
    urls.parse (urls.build bitcoin path params) = some ⟨bitcoin, none, path, params, none⟩

/-- The value a query gives to a key: the last one. -/
def Last (params : List (Bytes × Bytes)) (key value : Bytes) : Prop :=
  ∃ before after, params = before ++ (key, value) :: after ∧ ∀ p ∈ after, p.1 ≠ key

/-- The lower case of ASCII text. -/
def lower (s : Bytes) : Bytes := s.map fun c => if 65 ≤ c ∧ c ≤ 90 then c + 32 else c

/-- The text denotes a payment address (Base58Check of a version and 20 bytes) or is accepted as a stealth address. -/
def IsAddress (b : Sha.Build) (text : Bytes) : Prop :=
  (∃ v h, h.length = 20 ∧ Spec.Wallet.Base58Check text (v :: h)) ∨ ∃ a, Stealth.Address.fromString b text = some a ∧ a.valid = true

/-- The addresses given to the setter are well formed stealth addresses, as in C67. -/
def StealthOK (a : Stealth.Address) : Prop := a.valid = true ∧ ∃ f l scan keys s v, Binary.Holds f l ∧ scan.length = 33 ∧
  (∀ k ∈ keys, k.length = 33) ∧ (∀ k ∈ keys.tail, k ≠ scan) ∧ a = Stealth.Address.ofParts f scan keys s v

/-- The objects a program can hold: those made by a constructor, and changed by setters given well formed addresses. -/
inductive Reachable (b : Sha.Build) (urls : Urls) : BitcoinUri → Prop
  | empty : Reachable b urls .empty
  | ofText (t) : Reachable b urls (Uri.ofText b urls t)
  | setAmount {u} (n) : Reachable b urls u → n < 2 ^ 64 → Reachable b urls (u.setAmount n)
  | setLabel {u} (s) : Reachable b urls u → Reachable b urls (u.setLabel s)
  | setMessage {u} (s) : Reachable b urls u → Reachable b urls (u.setMessage s)
  | setR {u} (s) : Reachable b urls u → Reachable b urls (u.setR s)
  | setAddress {u u'} (s) : Reachable b urls u → u.setAddress b s = some u' → Reachable b urls u'
  | setPayment {u} (h v) : Reachable b urls u → h.length = 20 → Reachable b urls (u.setPayment (Wallet.Address.ofHash b h v))
  | setStealth {u} (a) : Reachable b urls u → StealthOK a → Reachable b urls (u.setStealth b a)
  | setScheme {u u'} (s) : Reachable b urls u → u.setScheme s = some u' → Reachable b urls u'
  | setPath {u u'} (s) : Reachable b urls u → u.setPath b s = some u' → Reachable b urls u'
  | setParameter {u u'} (k v) : Reachable b urls u → u.setParameter k v = some u' → Reachable b urls u'

end Verif.Uri
