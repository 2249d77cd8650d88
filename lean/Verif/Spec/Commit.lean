import Verif.Spec.Validate
import Verif.Spec.Number
import Mathlib.Data.Finset.Card
/-!
# Specification: what a coinbase transaction commits to, and the contextual block rules
-/
namespace Verif.Validate.Spec
open Verif Verif.Spec

/-- BIP34 as published: the script starts with a size byte and the height as a minimal little-endian script number of that
size. -/
def StartsWithHeight (script : Bytes) (height : Nat) : Prop :=
  ∃ n rest, script = UInt8.ofNat n.length :: n ++ rest ∧ n.length ≤ 9 ∧ MinimalNum n ∧ scriptNum n = height

/-- The output scripts of the coinbase, and its input's witness stack. -/
def coinbaseScripts (txs : List Tx) : List Bytes :=
  match txs with
  | t :: _ => t.outputs.map fun o => opsData o.script.ops
  | [] => []
def coinbaseStack (txs : List Tx) : List Bytes :=
  match txs with
  | t :: _ => match t.inputs with
    | i :: _ => i.witness.stack
    | [] => []
  | [] => []

/-- BIP141: `h` is committed by the last output of the coinbase that commits to anything. -/
def LastCommitment (txs : List Tx) (h : Bytes) : Prop :=
  ∃ before script after, coinbaseScripts txs = before ++ script :: after ∧ Commits script h ∧ ∀ s ∈ after, ∀ h', ¬ Commits s h'

/-- BIP141: without a commitment no input of any transaction has a witness; with one, the coinbase's witness is a single 32
byte value and the commitment is the hash of the root of the witness hashes and this value. -/
def WitnessCommitted (wtxid : Tx → Hash) (pair : Hash → Hash → Hash) (txs : List Tx) : Prop :=
  ((∀ h, ¬ LastCommitment txs h) ∧ ∀ t ∈ txs, ∀ i ∈ t.inputs, i.witness.stack = []) ∨
  ∃ commit root reserved : Hash, LastCommitment txs commit.bytes ∧ coinbaseStack txs = [reserved.bytes] ∧
    Merkle.Spec.IsRoot pair (txs.map wtxid) root ∧ commit = pair root reserved

/-- The hashes a block refers to (BIP50): of its transactions and of the outputs spent by all but the first. -/
def blockHashes (txid : Tx → Hash) (txs : List Tx) : Finset Hash :=
  (txs.map txid ++ txs.tail.flatMap fun t => t.inputs.map fun i => i.point.hash).toFinset

end Verif.Validate.Spec
