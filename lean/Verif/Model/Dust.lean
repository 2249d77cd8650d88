import Verif.Model.Connect
/-!
# Unspendable scripts and dust
-/
namespace Verif.Dust
open Verif

/-- `operation::is_reserved` (include/bitcoin/system/impl/chain/operation_patterns.ipp:405-423). -/
def isReserved (code : UInt8) : Bool := code ∈ ([98, 106, 80, 137, 138] : List UInt8) || code ≥ 186

/-- `script::is_unspendable` (src/chain/script.cpp:416-430). -/
def isUnspendable (ops : List Op) : Bool :=
  match ops with
  | [] => false
  | o :: _ => isReserved o.code || Machine.isInvalid o.code

/-- `output::is_dust` (src/chain/output.cpp:246-253). -/
def isDust (o : Output) (minimum : UInt64) : Bool := decide (o.value < minimum) && !isUnspendable o.script.ops

/-- `transaction::is_dusty` (src/chain/transaction.cpp:367-375). -/
def isDusty (t : Tx) (minimum : UInt64) : Bool := t.outputs.any fun o => isDust o minimum

end Verif.Dust
