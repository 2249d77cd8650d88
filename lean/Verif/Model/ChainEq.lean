import Verif.Model.Chain
/-!
# `operator==` of the chain objects

Pointer-equality shortcuts (`a == b || *a == *b`) have the same value as the comparison of the pointees.
`deep_equal` (include/bitcoin/system/data/…) compares sizes and then elements pairwise.
-/
namespace Verif

/-- `deep_equal` of two pointer vectors: same length and equal pointees (used at witness.cpp:134,
transaction.cpp:133-136, block.cpp:122). -/
def deepEqual {α : Type} (eq : α → α → Bool) : List α → List α → Bool
  | [], [] => true
  | a :: as, b :: bs => eq a b && deepEqual eq as bs
  | _, _ => false

/-- `point::operator==` (src/chain/point.cpp:99-103). -/
def Point.eqv (a b : Point) : Bool := a.hash == b.hash && a.index == b.index

/-- `operation::operator==` (src/chain/operation.cpp:179-184). -/
def Op.eqv (a b : Op) : Bool := a.code == b.code && (a.data == b.data && a.underflow == b.underflow)

/-- `script::operator==` (src/chain/script.cpp:178-182). -/
def Script.eqv (a b : Script) : Bool := a.size == b.size && deepEqual Op.eqv a.ops b.ops

/-- `witness::operator==` (src/chain/witness.cpp:132-135). -/
def Witness.eqv (a b : Witness) : Bool := deepEqual (fun x y => x == y) a.stack b.stack

/-- `input::operator==` (src/chain/input.cpp:190-196). -/
def Input.eqv (a b : Input) : Bool :=
  a.sequence == b.sequence && (a.point.eqv b.point && (a.script.eqv b.script && a.witness.eqv b.witness))

/-- `output::operator==` (src/chain/output.cpp:115-119). -/
def Output.eqv (a b : Output) : Bool := a.value == b.value && a.script.eqv b.script

/-- `transaction::operator==` (src/chain/transaction.cpp:128-137). -/
def Tx.eqv (a b : Tx) : Bool :=
  a.version == b.version && (a.locktime == b.locktime &&
    (deepEqual Input.eqv a.inputs b.inputs && deepEqual Output.eqv a.outputs b.outputs))

/-- `header::operator==` (src/chain/header.cpp:126-134). -/
def Header.eqv (a b : Header) : Bool :=
  a.version == b.version && (a.previous == b.previous && (a.merkleRoot == b.merkleRoot &&
    (a.timestamp == b.timestamp && (a.bits == b.bits && a.nonce == b.nonce))))

/-- `block::operator==` (src/chain/block.cpp:119-123). -/
def Block.eqv (a b : Block) : Bool := a.header.eqv b.header && deepEqual Tx.eqv a.txs b.txs

end Verif
