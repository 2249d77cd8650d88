import Verif.Spec.Secp
import Verif.Spec.Mac
/-!
# BIP32 (hierarchical deterministic keys)

`ser32`, `ser256`, `serP`, `parse256`, `HMAC-SHA512(Key, Data)` and the child key derivation functions as in the BIP.
-/
namespace Verif.Spec.Bip32
open Verif
variable {P : Type} [AddCommGroup P] [DecidableEq P] (C : Curve P)

/-- Big-endian representation in 4 and 32 bytes. -/
def ser32 (i : Nat) : Bytes := Hash.beRep 4 i
def ser256 (k : Nat) : Bytes := Hash.beRep 32 k
def parse256 (b : Bytes) : Nat := Hash.beVal b
/-- SEC1 compressed form. -/
def serP (p : P) : Bytes := C.compressed p
def point (k : Nat) : P := k • C.generator
/-- HMAC-SHA512, block size 128. -/
def hmacSha512 (key data : Bytes) : Bytes := Mac.hmac Hash.sha512.digest 128 key data
def hash160 (b : Bytes) : Bytes := Hash.rmd160 (Hash.sha256.digest b)

/-- Private parent key to private child key. -/
def ckdPriv (k : Nat) (c : Bytes) (i : Nat) : Option (Nat × Bytes) :=
  let I := hmacSha512 c (if 2 ^ 31 ≤ i then 0 :: ser256 k ++ ser32 i else serP C (point C k) ++ ser32 i)
  let il := parse256 (I.take 32)
  if C.order ≤ il ∨ (il + k) % C.order = 0 then none else some ((il + k) % C.order, I.drop 32)

/-- Public parent key to public child key (failing for hardened children). -/
def ckdPub (K : P) (c : Bytes) (i : Nat) : Option (P × Bytes) :=
  if 2 ^ 31 ≤ i then none
  else
    let I := hmacSha512 c (serP C K ++ ser32 i)
    let il := parse256 (I.take 32)
    if C.order ≤ il ∨ point C il + K = 0 then none else some (point C il + K, I.drop 32)

/-- "Bitcoin seed" -/
def seedKey : Bytes := [66, 105, 116, 99, 111, 105, 110, 32, 115, 101, 101, 100]
/-- Master key generation from a seed. -/
def master (seed : Bytes) : Option (Nat × Bytes) :=
  let I := hmacSha512 seedKey seed
  let il := parse256 (I.take 32)
  if il = 0 ∨ C.order ≤ il then none else some (il, I.drop 32)

/-- The key fingerprint: the first 32 bits of the identifier. -/
def fingerprint (K : P) : Bytes := (hash160 (serP C K)).take 4

end Verif.Spec.Bip32
