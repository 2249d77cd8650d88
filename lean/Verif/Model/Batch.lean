import Verif.Model.Sieve
import Verif.Model.Stream
/-!
# Signature batches

Sources: include/bitcoin/system/chain/batch/signatures.hpp, include/bitcoin/system/chain/batch/multisig.hpp and
src/crypto/secp256k1/batch.cpp. The checks of one signature, `ecdsa::verify_signature` and `schnorr::verify_signature`, are parameters.
The corresponding columns of a batch (secp256k1_batch.hpp:74-77, 110-113) are a list of rows. The accelerated build (batch.cpp:96-140)
and silent payments are not modelled.
-/
namespace Verif.Batch
open Verif

/-- `multisig::maximum` (multisig.hpp:33): power2(byte_bits / 2). -/
def multisigMaximum : Nat := 2 ^ (8 / 2)
/-- `multisig::check` (multisig.hpp:35-39). -/
def multisigCheck (sigs keys : Nat) : Bool := sigs != 0 && keys != 0 && !(keys > multisigMaximum) && !(sigs > keys)
/-- `multisig::rows` (multisig.hpp:42-53), over `size_t`: zero where a step overflows. -/
def multisigRows (sigs keys : Nat) : Nat :=
  let gap := (2 ^ 64 + keys - sigs) % 2 ^ 64
  if keys < sigs || gap + 1 ≥ 2 ^ 64 then 0 else
  let sum := gap + 1
  if sigs * sum ≥ 2 ^ 64 then 0 else sigs * sum

/-! ## The log of captured groups -/

/-- The state of `ecdsa_signatures` (signatures.hpp:299-303). -/
structure Log where
  log : Bytes := []
  groups : Nat := 0
  rows : Nat := 0
  singles : Nat := 0
  keys : Nat := 0
deriving DecidableEq

/-- `put` (signatures.hpp:254-274): none where the log declines. The assertion is not modelled (it holds by the condition on callers). -/
def Log.put (l : Log) (digest : Bytes) (keys sigs : List Bytes) : Option Log :=
  if l.groups > 2 ^ 16 - 1 then none else
  some { l with
    log := l.log ++ [UInt8.ofNat sigs.length] ++ [UInt8.ofNat keys.length] ++ digest ++ keys.flatten ++ sigs.flatten
    groups := l.groups + 1
    rows := l.rows + multisigRows sigs.length keys.length }

/-- `append` of a single signature (signatures.hpp:133-141). -/
def Log.appendSingle (l : Log) (digest key signature : Bytes) : Option Log :=
  (l.put digest [key] [signature]).map fun l => { l with singles := l.singles + 1 }
/-- `append` of a multisig group (signatures.hpp:145-154). -/
def Log.appendMultisig (l : Log) (digest : Bytes) (keys sigs : List Bytes) : Option Log :=
  (l.put digest keys sigs).map fun l => { l with keys := l.keys + keys.length }
/-- `clear` (signatures.hpp:237-244) and `purge` (247-251), which differ in capacity alone. -/
def Log.clear (_ : Log) : Log := {}

/-- A span of `count` arrays of `size` bytes at a pointer (signatures.hpp:178-186). -/
def spans (size : Nat) : Nat → Bytes → List Bytes
  | 0, _ => []
  | count + 1, bytes => bytes.take size :: spans size count (bytes.drop size)

/-- What `for_each` (signatures.hpp:160-190) visits: the digest, the keys and the signatures of each record. The pointer never meets the
end of a log that is not a whole number of records, which the model ends by the length of the log. -/
def visits (bytes : Bytes) : List (Bytes × List Bytes × List Bytes) :=
  match bytes with
  | sigsCount :: keysCount :: it =>
    let digest := it.take 32
    let it := it.drop 32
    let keys := spans 33 keysCount.toNat it
    let it := it.drop (keysCount.toNat * 33)
    let sigs := spans 64 sigsCount.toNat it
    let it := it.drop (sigsCount.toNat * 64)
    (digest, keys, sigs) :: visits it
  | _ => []
termination_by bytes.length
decreasing_by simp [it]; omega

section Verify
variable (V : Bytes → Bytes → Bytes → Bool)

/-- `verify_group` (signatures.hpp:282-297): the loop over what remains of the keys and the signatures. -/
def verifyGroup (digest : Bytes) : List Bytes → List Bytes → Bool
  | _, [] => true
  | [], _ :: _ => false
  | key :: keys, sig :: sigs =>
    if keys.length + 1 ≥ sigs.length + 1 then
      if V key digest sig then verifyGroup digest keys sigs else verifyGroup digest keys (sig :: sigs)
    else false

/-- `ecdsa_signatures::verify` (signatures.hpp:223-234). -/
def Log.verify (l : Log) : Bool :=
  (visits l.log).foldl (fun success g => verifyGroup V g.1 g.2.1 g.2.2 && success) true

/-- A row of the log of schnorr signatures (signatures.hpp:56-61) and its `verify` (95-103): digest, point, signature. -/
def schnorrVerify (rows : List (Bytes × Bytes × Bytes)) : Bool := rows.all fun r => V r.2.1 r.1 r.2.2
end Verify

/-! ## Evaluation of a batch -/

/-- A row of the columns of an ecdsa batch: correlate_t and the three other columns (secp256k1_batch.hpp:62-77). -/
structure Row where
  id : Bytes
  pair : UInt8
  group : UInt16
  digest : Bytes
  point : Bytes
  signature : Bytes
deriving DecidableEq

/-- A row of the columns of a schnorr batch (secp256k1_batch.hpp:100-113). -/
structure XRow where
  id : Bytes
  digest : Bytes
  point : Bytes
  signature : Bytes
deriving DecidableEq

/-- `batch_verify` (batch.cpp:144-172), `order` the order in which the rows happen to be taken, `stop t` what the `t`th read of the stopper
gives. A row writes its own result and the flag can only be raised, so that rows may be taken one at a time. -/
def batchVerify (good : Nat → Bool) (count : Nat) (order : List Nat) (stop : Nat → Bool) : Bytes :=
  let s := order.foldl (fun (s : Bytes × Bool × Nat) row =>
      if stop s.2.2 then (s.1, s.2.1, s.2.2 + 1) else
      let g := good row
      (s.1.set row (if g then 1 else 0), s.2.1 || !g, s.2.2 + 1)) (List.replicate count 0, false, 0)
  if stop count || !s.2.1 then [] else s.1

/-- `batched::terminal` (secp256k1_batch.hpp:34). -/
def terminal : Bytes := [0xff, 0xff, 0xff]
/-- `push_fail` (batch.cpp:178-183). -/
def pushFail (fails : List Nat) (id : Bytes) : List Nat := if id ≠ terminal then fails ++ [leNat id] else fails

/-- std::sort, by insertion. -/
def insertSorted (x : Nat) : List Nat → List Nat
  | [] => [x]
  | y :: l => if x ≤ y then x :: y :: l else y :: insertSorted x l
/-- std::sort, by insertion. Used for collection.ipp:186-199. -/
def sorted : List Nat → List Nat
  | [] => []
  | x :: l => insertSorted x (sorted l)
/-- std::unique and the erase of the tail. Used for collection.ipp:186-199. -/
def unique : List Nat → List Nat
  | x :: y :: l => if x = y then unique (y :: l) else x :: unique (y :: l)
  | l => l
/-- `distinct` (impl/data/collection.ipp:186-199). -/
def distinct (l : List Nat) : List Nat := unique (sorted l)

/-- The inner loop of `meets_threshold` (batch.cpp:200-202): the next key, and whether one matched. -/
def nextKey (word keys : Nat) (key : Nat) : Bool × Nat :=
  if h : key < keys then
    if Filter.getRight 16 word key then (true, key + 1) else nextKey word keys (key + 1)
  else (false, key)
termination_by keys - key

/-- The outer loop of `meets_threshold` (batch.cpp:197-206), `left` the signatures that remain. -/
def thresholdLoop (keys : Nat) (successes : List Nat) (signature key : Nat) : Nat → Bool
  | 0 => true
  | left + 1 =>
    let r := nextKey (successes[signature]?.getD 0) keys key
    if r.1 then thresholdLoop keys successes (signature + 1) r.2 left else false

/-- `meets_threshold` (batch.cpp:189-209). -/
def meetsThreshold (signatures keys : Nat) (successes : List Nat) : Bool :=
  if signatures > keys then false else thresholdLoop keys successes 0 0 signatures

/-- `unpack_word<uint8_t>` of a byte (impl/math/bits.ipp:480-493). -/
def unpack (pair : UInt8) : Nat × Nat := (pair.toNat >>> 4, pair.toNat &&& Filter.unmaskRight 8 4)

/-- The matrix of a group and its largest indexes (batch.cpp:248-259). -/
def matrix (rows : List (Row × UInt8)) : List Nat × Nat × Nat :=
  rows.foldl (fun (s : List Nat × Nat × Nat) r =>
    let sig := (unpack r.1.pair).1
    let key := (unpack r.1.pair).2
    let successes := if r.2 ≠ 0 then s.1.set sig (Filter.setRight 16 (s.1[sig]?.getD 0) key true) else s.1
    (successes, max sig s.2.1, max key s.2.2)) (List.replicate 16 0, 0, 0)

/-- A whole group: one row, or a matrix (batch.cpp:234-266), `first` the row that the group begins with. -/
def closeGroup (fails : List Nat) (first : Row × UInt8) (others : List (Row × UInt8)) : List Nat :=
  if others = [] then (if first.2 ≠ 0 then fails else pushFail fails first.1.id) else
  let m := matrix (first :: others)
  if meetsThreshold (m.2.1 + 1) (m.2.2 + 1) m.1 then fails else pushFail fails first.1.id

/-- The loop of `ecdsa::batch::get_failures` (batch.cpp:226-267): the rows from `group` up to `index` are carried as a list (`first` and
`others`, in order), `t` counts the reads of the stopper. -/
def failureLoop (stop : Nat → Bool) (t : Nat) (fails : List Nat) (first : Row × UInt8) (others : List (Row × UInt8)) :
    List (Row × UInt8) → List Nat
  | [] => if stop t then fails else closeGroup fails first others
  | r :: rest =>
    if stop t then fails else
    if r.1.id = first.1.id ∧ r.1.group = first.1.group then failureLoop stop (t + 1) fails first (others ++ [r]) rest
    else failureLoop stop (t + 1) (closeGroup fails first others) r [] rest

/-- `ecdsa::batch::get_failures` (batch.cpp:214-269). -/
def getFailures (stop : Nat → Bool) (t : Nat) (out : Bytes) (rows : List Row) : List Nat :=
  if out = [] then [] else
  match rows.zip out with
  | [] => []
  | first :: rest => distinct (failureLoop stop t [] first [] rest)

/-- The loop of `schnorr::batch::get_failures` (batch.cpp:292-294). -/
def schnorrLoop (stop : Nat → Bool) (t : Nat) (fails : List Nat) : List (XRow × UInt8) → List Nat
  | [] => fails
  | r :: rest => if stop t then fails else schnorrLoop stop (t + 1) (if r.2 ≠ 0 then fails else pushFail fails r.1.id) rest

/-- `schnorr::batch::get_failures` (batch.cpp:280-297). -/
def schnorrFailures (stop : Nat → Bool) (t : Nat) (out : Bytes) (rows : List XRow) : List Nat :=
  if out = [] then [] else distinct (schnorrLoop stop t [] (rows.zip out))

/-- `ecdsa::batch::verify` (batch.cpp:345-349, 318-333): evaluate, then correlate. -/
def ecdsaVerify (V : Bytes → Bytes → Bytes → Bool) (order : List Nat) (stop : Nat → Bool) (rows : List Row) : List Nat :=
  let good := fun i => match rows[i]? with
    | some r => V r.point r.digest r.signature
    | none => false
  getFailures stop (rows.length + 1) (batchVerify good rows.length order stop) rows

/-- `schnorr::batch::verify` (batch.cpp:351-355, 324-339). -/
def schnorrBatchVerify (V : Bytes → Bytes → Bytes → Bool) (order : List Nat) (stop : Nat → Bool) (rows : List XRow) : List Nat :=
  let good := fun i => match rows[i]? with
    | some r => V r.point r.digest r.signature
    | none => false
  schnorrFailures stop (rows.length + 1) (batchVerify good rows.length order stop) rows

end Verif.Batch
