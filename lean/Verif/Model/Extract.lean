import Verif.Model.Wallet
import Verif.Model.Patterns
/-!
# Payment addresses of scripts
-/
namespace Verif.Wallet
open Verif Verif.Ec
open Verif.Sha (Build)
variable {P : Type} [AddCommGroup P] [DecidableEq P] (C : Curve P) (b : Build)

/-- `payment_address::extract_input` (src/wallet/addresses/payment_address.cpp:232-278). `front` and `back` are of the operations, which are
not empty under either pattern. -/
def extractInput (ops : List Op) (p2kh p2sh : UInt8) : List Address :=
  match Pattern.inputPattern ops with
  | .signKeyHash => [Address.fromPublic C b (PublicKey.fromData C ((ops.head?.map Op.data).getD [])) p2kh]
  | .signScriptHash => [Address.ofHash b (HashFn.bitcoinShortHash b true ((ops.getLast?.map Op.data).getD [])) p2sh]
  | _ => []

/-- `payment_address::extract` (payment_address.cpp:219-229). -/
def extract (ops : List Op) (p2kh p2sh : UInt8) : List Address :=
  if (extractInput C b ops p2kh p2sh).isEmpty then [extractOutput b ops p2kh p2sh] else extractInput C b ops p2kh p2sh

end Verif.Wallet
