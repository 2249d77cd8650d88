import Verif.Model.View
/-!
# Identity hashes and their caches

The hash function (`bitcoin_hash`, double sha256 by `C58`) is a parameter `H`. `to_data` is that of scripts whose evaluation
offset is at their start (see `C39_offset_counterexample`).
-/
namespace Verif.Ident
open Verif Validate Views

/-- `nominal_hash_`, `witness_hash_` (include/bitcoin/system/chain/transaction.hpp, mutable members). Used for transaction_cache.cpp:61-87. -/
structure TxCache where
  nominal : Option Hash := none
  witness : Option Hash := none

/-- `transaction::hash(witness)` (src/chain/transaction_cache.cpp:61-87). -/
def hash (H : Bytes → Hash) (t : Tx) (c : TxCache) (w : Bool) : Hash :=
  if t.segregated then
    if w then
      match c.witness with
      | some h => h
      | none => if isCoinbase t then nullHash else H (t.toData w)
    else
      match c.nominal with
      | some h => h
      | none => H (t.toData w)
  else
    match c.nominal with
    | some h => h
    | none => H (t.toData w)

/-- `transaction::get_hash(witness)` (src/chain/transaction_cache.cpp:104-117) with `set_nominal_hash`, `set_witness_hash`
(92-102): the result and the caches afterwards. -/
def getHash (H : Bytes → Hash) (t : Tx) (c : TxCache) (w : Bool) : Hash × TxCache :=
  if w then
    match c.witness with
    | some h => (h, c)
    | none => (hash H t c w, { c with witness := some (hash H t c w) })
  else
    match c.nominal with
    | some h => (h, c)
    | none => (hash H t c w, { c with nominal := some (hash H t c w) })

/-- The calls a user makes. -/
inductive Call
  | hash (witness : Bool)
  | getHash (witness : Bool)

/-- One call: its result and the caches afterwards. -/
def step (H : Bytes → Hash) (t : Tx) (c : TxCache) : Call → Hash × TxCache
  | .hash w => (hash H t c w, c)
  | .getHash w => getHash H t c w

/-- The results of a history of calls. -/
def run (H : Bytes → Hash) (t : Tx) : TxCache → List Call → List Hash
  | _, [] => []
  | c, k :: ks => (step H t c k).1 :: run H t (step H t c k).2 ks

/-- `header::hash` (src/chain/header.cpp:257-273) over the cache `hash_`. -/
def headerHash (H : Bytes → Hash) (h : Header) (c : Option Hash) : Hash :=
  match c with
  | some x => x
  | none => H h.toData
/-- `header::get_hash` (src/chain/header.cpp:304-310), `set_hash` (299-302). -/
def headerGetHash (H : Bytes → Hash) (h : Header) (c : Option Hash) : Hash × Option Hash :=
  match c with
  | some x => (x, c)
  | none => (headerHash H h c, some (headerHash H h c))

/-- `size_variable(prefix)` (include/bitcoin/system/funclets.hpp:192-205). -/
def sizeVariable (prefix_ : UInt8) : Nat :=
  if prefix_ = 0xff then 9
  else if prefix_ = 0xfe then 5
  else if prefix_ = 0xfd then 3
  else 1

/-- The loop of `block::set_hashes` (src/chain/block.cpp:301-324): the caches of the transactions afterwards. `start` is the
buffer from the current pointer on; reads beyond its end are cut short here (they are undefined in the code). -/
def setTxHashes (H : Bytes → Hash) : Bool → Bytes → List (Tx × TxCache) → List TxCache
  | _, _, [] => []
  | coinbase, start, (t, c) :: rest =>
    let witnessSize := t.serializedSize true
    let c' :=
      if t.segregated then
        let c1 : TxCache := { c with nominal := some (desegregatedHash H witnessSize (t.serializedSize false) start) }
        if !coinbase then { c1 with witness := some (H (start.take witnessSize)) } else c1
      else { c with nominal := some (H (start.take witnessSize)) }
    c' :: setTxHashes H false (start.drop witnessSize) rest

/-- `block::set_hashes(data)` (src/chain/block.cpp:289-325): the cache of the header and those of the transactions. -/
def setHashes (H : Bytes → Hash) (b : Block) (cs : List TxCache) (data : Bytes) : Option Hash × List TxCache :=
  let start := data.drop 80
  (some (H (data.take 80)), setTxHashes H true (start.drop (sizeVariable (start.headD 0))) (b.txs.zip cs))

end Verif.Ident
