import Verif.Model.EcOperators
import Verif.Model.HashFunctions
/-!
# Borromean ring signatures

Source: src/crypto/ring_signature.cpp. A signature is a challenge and, for each ring, a list of proofs, one for each key. The indexes into
the proofs and the salts are guarded by assertions alone: where the source would read outside of a list, the model fails, and the theorems
ask for lists of the right sizes. Indexes are `uint32_t` in the source, so that rings of more than 2^32 keys are not modelled.
-/
namespace Verif.Ring
open Verif Verif.Ec
variable {P : Type} [AddCommGroup P] [DecidableEq P] (C : Curve P) (b : Sha.Build)

/-- A sha256 sink over a stream of 32 bytes, written in parts and flushed; the destructor flushes once more, what does not fit the stream
(ring_signature.cpp:40-47, 179-204). -/
def sink (parts : List Bytes) : Bytes :=
  (HashFn.runWriter (HashFn.sha256Writer b true) (Hash.init (HashFn.acc256 b)) (parts.map .write ++ [.flush])).take 32

/-- `ring_signature` (include/bitcoin/system/crypto/ring_signature.hpp:41-47). -/
structure Signature where
  challenge : Bytes
  proofs : List (List Bytes)
deriving DecidableEq

/-- `borromean_hash` (ring_signature.cpp:36-49). -/
def borromeanHash (M R : Bytes) (i j : Nat) : Bytes := sink b [R, M, beBytes 4 i, beBytes 4 j]

/-- `secret_keys_map` (ring_signature.cpp:34) and its `insert`, which keeps what there is for a key. -/
abbrev Keys := List (Bytes × Bytes)
/-- As above, ring_signature.cpp:34. -/
def Keys.find (keys : Keys) (k : Bytes) : Option Bytes := (List.find? (fun q => q.1 == k) keys).map (·.2)
/-- As above, ring_signature.cpp:34. -/
def Keys.insert (keys : Keys) (k s : Bytes) : Keys := if (keys.find k).isSome then keys else keys ++ [(k, s)]

/-- `generate_keys_map` (ring_signature.cpp:51-65). -/
def generateKeysMap (out : Keys) : List Bytes → Option Keys
  | [] => some out
  | s :: ss => match secretToPublic C s with
    | none => none
    | some p => generateKeysMap (out.insert p s) ss

/-- `known_keys_in_ring` (ring_signature.cpp:67-81). -/
def knownKeysInRing (keys : Keys) (ring : List Bytes) : List Bytes := ring.filter fun k => (keys.find k).isSome

/-- `partition_keys_into_rings`, `create_key_indexes`, `generate_known_indexes` (ring_signature.cpp:83-138): for each ring the first place of its last
known key. -/
def generateKnownIndexes (rings : List (List Bytes)) (keys : Keys) : Option (List Nat) :=
  rings.mapM fun ring => match (knownKeysInRing keys ring).getLast? with
    | none => none
    | some k => if k ∈ ring then some (ring.idxOf k) else none

/-- `calculate_R` (ring_signature.cpp:140-144). -/
def calculateR (s e p : Bytes) : Bytes := Point.add C (Point.mul C (C.compressed C.generator) s) (Point.mul C p e)

/-- The loop of `calculate_last_R_signing` (ring_signature.cpp:154-170) over the keys and proofs from `j` on. -/
def signingLoop (i : Nat) (digest : Bytes) : Nat → List Bytes → List Bytes → Bytes → Bytes
  | _, [], _, R => R
  | _, _ :: _, [], _ => Point.none
  | j, k :: ks, s :: ss, R =>
    if !Scalar.nonzero s then Point.none
    else
      let e := borromeanHash b digest R i j
      if !Scalar.nonzero e then Point.none
      else
        let R' := calculateR C s e k
        if !Point.valid R' then Point.none else signingLoop i digest (j + 1) ks ss R'

/-- `calculate_last_R_signing` (ring_signature.cpp:146-173). -/
def lastRSigning (ring : List Bytes) (i : Nat) (digest : Bytes) (proofs : List Bytes) (known : Nat) (salt : Bytes) : Bytes :=
  let R := Point.mul C (C.compressed C.generator) salt
  if !Point.valid R then Point.none
  else signingLoop C b i digest (known + 1) (ring.drop (known + 1)) (proofs.drop (known + 1)) R

/-- The loop of `calculate_e0` (ring_signature.cpp:187-201): what is written to the sink. -/
def e0Parts (digest : Bytes) : Nat → List (List Bytes) → List (List Bytes) → List Bytes → List Nat → Option (List Bytes)
  | _, [], _, _, _ => some []
  | i, ring :: rings, proofs :: ps, salt :: salts, known :: ks =>
    let R := lastRSigning C b ring i digest proofs known salt
    if !Point.valid R then none
    else match e0Parts digest (i + 1) rings ps salts ks with
      | none => none
      | some parts => some (R :: parts)
  | _, _ :: _, _, _, _ => none

/-- `calculate_e0` (ring_signature.cpp:175-208). -/
def calculateE0 (rings proofs : List (List Bytes)) (digest : Bytes) (salts : List Bytes) (known : List Nat) : Option Bytes :=
  match e0Parts C b digest 0 rings proofs salts known with
  | none => none
  | some parts => some (sink b (parts ++ [digest]))

/-- The loop of `calculate_e_at_known_key_index` (ring_signature.cpp:218-233) over the keys and proofs before the known one. -/
def knownLoop (i : Nat) (digest : Bytes) : Nat → List Bytes → List Bytes → Bytes → Option Bytes
  | _, [], _, e => some e
  | _, _ :: _, [], _ => none
  | j, k :: ks, s :: ss, e =>
    if !Scalar.nonzero s then none
    else
      let R := calculateR C s e k
      if !Point.valid R then none
      else
        let e' := borromeanHash b digest R i (j + 1)
        if !Scalar.nonzero e' then none else knownLoop i digest (j + 1) ks ss e'

/-- `join_rings` (ring_signature.cpp:238-276), for each ring its proofs with the one at the known index replaced. -/
def joinRings (challenge digest : Bytes) (keys : Keys) : Nat → List (List Bytes) → List (List Bytes) → List Bytes → List Nat →
    Option (List (List Bytes))
  | _, [], _, _, _ => some []
  | i, ring :: rings, proofs :: ps, k :: salts, known :: ks =>
    let e0 := borromeanHash b digest challenge i 0
    if !Scalar.nonzero e0 then none
    else match knownLoop C b i digest 0 (ring.take known) proofs e0 with
      | none => none
      | some e =>
        match ring[known]? with
        | none => none
        | some key => match keys.find key with
          | none => none
          | some x =>
            let s := Scalar.sub C k (Scalar.mul C e x)
            if !Scalar.nonzero s then none
            else match joinRings challenge digest keys (i + 1) rings ps salts ks with
              | none => none
              | some rest => some (proofs.set known s :: rest)
  | _, _ :: _, _, _, _ => none

/-- The loop of `calculate_last_R_verify` (ring_signature.cpp:285-302). -/
def verifyLoop (i : Nat) (digest : Bytes) : Nat → List Bytes → List Bytes → Bytes → Bytes → Bytes
  | _, [], _, _, R => R
  | _, _ :: _, [], _, _ => Point.none
  | j, k :: ks, s :: ss, e, _ =>
    if !Scalar.nonzero s || !Scalar.nonzero e then Point.none
    else
      let R := calculateR C s e k
      if !Point.valid R then Point.none
      else
        let e' := borromeanHash b digest R i (j + 1)
        if !Scalar.nonzero e' then Point.none else verifyLoop i digest (j + 1) ks ss e' R

/-- `digest` (ring_signature.cpp:310-324). -/
def digest (message : Bytes) (rings : List (List Bytes)) : Bytes := sink b (message :: rings.flatten)

/-- `sign` (ring_signature.cpp:326-348), on success: what `out` holds then. Of what `out` holds before, the proofs are used and the challenge is not. -/
def sign (proofs : List (List Bytes)) (secrets : List Bytes) (rings : List (List Bytes)) (digest : Bytes) (salts : List Bytes) :
    Option Signature :=
  if 2 ^ 32 - 1 ≤ rings.length then none
  else match generateKeysMap C [] secrets with
    | none => none
    | some keys => match generateKnownIndexes rings keys with
      | none => none
      | some known => match calculateE0 C b rings proofs digest salts known with
        | none => none
        | some challenge => match joinRings C b challenge digest keys 0 rings proofs salts known with
          | none => none
          | some ps => some ⟨challenge, ps⟩

/-- The loop of `verify` (ring_signature.cpp:367-384): what is written to the sink. -/
def verifyParts (challenge digest : Bytes) : Nat → List (List Bytes) → List (List Bytes) → Option (List Bytes)
  | _, [], _ => some []
  | _, _ :: _, [] => none
  | i, ring :: rings, proofs :: ps =>
    let e := borromeanHash b digest challenge i 0
    if !Scalar.nonzero e then none
    else
      let R := verifyLoop C b i digest 0 ring proofs e Point.none
      if !Point.valid R then none
      else match verifyParts challenge digest (i + 1) rings ps with
        | none => none
        | some parts => some (R :: parts)

/-- `verify` (ring_signature.cpp:350-391). -/
def verify (rings : List (List Bytes)) (digest : Bytes) (signature : Signature) : Bool :=
  if 2 ^ 32 - 1 ≤ rings.length || decide (signature.proofs.length ≠ rings.length) then false
  else match verifyParts C b signature.challenge digest 0 rings signature.proofs with
    | none => false
    | some parts => sink b (parts ++ [digest]) == signature.challenge

end Verif.Ring
