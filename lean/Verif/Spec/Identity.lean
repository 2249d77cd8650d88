import Verif.Model.Identity
/-!
# Transaction identifiers (BIP141)

The transaction identifier is the hash of the serialisation without witnesses, the witness transaction identifier the hash of
that with them; for a coinbase with witnesses the latter is taken as zero.
-/
namespace Verif.Spec
open Verif

def txid (H : Bytes → Hash) (t : Tx) : Hash := H (t.toData false)
def wtxid (H : Bytes → Hash) (t : Tx) : Hash :=
  if t.segregated = true ∧ Validate.isCoinbase t = true then nullHash else H (t.toData true)
/-- The identifier a call asks for. -/
def identifier (H : Bytes → Hash) (t : Tx) (witness : Bool) : Hash := if witness then wtxid H t else txid H t

end Verif.Spec
