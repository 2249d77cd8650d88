import Verif.Model.Config
import Verif.Model.Wallet
import Verif.Model.HdKeys
import Verif.Model.Stealth
import Verif.Model.Bip38
import Verif.Model.Bech32
/-!
# Reading wallet values from streams

`operator>>` of the wallet classes. A stream is the text that is left of it, in the C locale.
-/
namespace Verif.WalletStream
open Verif Verif.Ec
open Verif.Config (word)
open Verif.ScriptText (isWs)
open Verif.Sha (Build)
variable {P : Type} [AddCommGroup P] [DecidableEq P] (C : Curve P) (b : Build)

/-- What is left after `stream >> text`: the text from the whitespace that ended the word. Used for payment_address.cpp:198-208. -/
def after (s : Bytes) : Bytes := (s.dropWhile isWs).dropWhile fun c => !isWs c

/-- What a call of `operator>>` does: the target afterwards, whether `istream_exception` is thrown, and what is left of the stream. Used for payment_address.cpp:198-208. -/
structure Extraction (α : Type) where
  target : α
  thrown : Bool
  rest : Bytes

/-- `in >> value; to = T(value); if (!to) throw istream_exception(value);` (src/wallet/addresses/payment_address.cpp:198-208 and those below). -/
def assign {α : Type} (parse : Bytes → α) (ok : α → Bool) (s : Bytes) : Extraction α :=
  let value := word s
  let target := parse value
  ⟨target, !ok target, after s⟩

/-- `in >> value; to.from_string(value); if (!to) throw istream_exception(value);`, where `from_string` is a static function: its result is
not used (src/wallet/keys/ek_token.cpp:104-114, hd_private.cpp:300-310, hd_public.cpp:258-268). -/
def discard {α : Type} (parse : Bytes → α) (ok : α → Bool) (target : α) (s : Bytes) : Extraction α :=
  let value := word s
  let _ := parse value
  ⟨target, !ok target, after s⟩

/-- `payment_address` (src/wallet/addresses/payment_address.cpp:198-208). -/
def readPayment (s : Bytes) : Extraction Wallet.Address := assign (Wallet.Address.fromString b) (·.valid b) s
/-- `ec_public` (src/wallet/keys/ec_public.cpp:215-225). -/
def readPublic (s : Bytes) : Extraction Wallet.PublicKey := assign (Wallet.PublicKey.fromString C) (·.valid) s
/-- `ec_private` (src/wallet/keys/ec_private.cpp:244-254), with the default address version, zero (ec_private.hpp:79-80). -/
def readPrivate (s : Bytes) : Extraction Wallet.PrivateKey := assign (fun t => Wallet.PrivateKey.fromString b t 0) (·.valid) s
/-- `stealth_address` (src/wallet/addresses/stealth_address.cpp:328-338); the texts are short of what overruns (`C67_address_safe`). -/
def readStealth (s : Bytes) : Extraction Stealth.Address :=
  assign (fun t => (Stealth.Address.fromString b t).getD .none) (·.valid) s
/-- `witness_address` (src/wallet/addresses/witness_address.cpp:452-462), not strict (witness_address.hpp:114); `none` is the default. -/
def readWitness (s : Bytes) : Extraction (Option Bech32.Address) :=
  assign (fun t => (Bech32.parseAddress t false).toOption) (·.isSome) s
/-- `ek_private` (43 bytes; src/wallet/keys/ek_private.cpp:104-114) and `ek_public` (55; ek_public.cpp:104-114); `none` is the default. -/
def readEncrypted (size : Nat) (s : Bytes) : Extraction (Option Bytes) := assign (Bip38.fromString b size) (·.isSome) s
/-- `ek_token` (src/wallet/keys/ek_token.cpp:104-114). -/
def readToken (target : Option Bytes) (s : Bytes) : Extraction (Option Bytes) := discard (Bip38.fromString b 53) (·.isSome) target s
/-- `hd_private` (src/wallet/keys/hd_private.cpp:300-310), with the mainnet public prefix (hd_public.hpp:62). -/
def readHdPrivate (target : Hd.Private) (s : Bytes) : Extraction Hd.Private :=
  discard (fun t => Hd.Private.fromStringPublic C t 0x0488b21e) (·.pub.valid) target s
/-- `hd_public` (src/wallet/keys/hd_public.cpp:258-268). -/
def readHdPublic (target : Hd.Public) (s : Bytes) : Extraction Hd.Public := discard (fun t => Hd.Public.fromString t none) (·.valid) target s

/-- `in >> x0 >> x1 >> ..`: as many values as said, or `none` if one is not read. -/
def readAll {α : Type} (read : Bytes → Extraction α) : Nat → Bytes → Option (List α × Bytes)
  | 0, s => some ([], s)
  | n + 1, s =>
    let e := read s
    if e.thrown then none
    else (readAll read n e.rest).map fun r => (e.target :: r.1, r.2)

end Verif.WalletStream
