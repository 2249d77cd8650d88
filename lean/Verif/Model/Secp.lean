import Verif.Spec.Secp
/-!
# Keys and curve arithmetic over libsecp256k1

Functions with an in/out argument and a success flag return `some` of the new value, or `none`.
-/
namespace Verif.Ec
open Verif
variable {P : Type} [AddCommGroup P] [DecidableEq P] (C : Curve P)

/-- `secp256k1_ec_seckey_verify`: a 32 byte secret is valid if its value is not zero and less than the order. `verify_secret`
(src/crypto/secp256k1/keys.cpp:78-82). -/
def verifySecret (s : Bytes) : Bool := decide (0 < beNat s) && decide (beNat s < C.order)

/-- `secp256k1_ec_pubkey_create` and `secret_to_public` (keys.cpp:35-42, 63-67). -/
def secretToPublic (s : Bytes) : Option Bytes :=
  if verifySecret C s then some (C.compressed (beNat s • C.generator)) else none
/-- The overload for uncompressed points (keys.cpp:69-73). -/
def secretToUncompressed (s : Bytes) : Option Bytes :=
  if verifySecret C s then some (C.uncompressed (beNat s • C.generator)) else none

/-- `compress` (keys.cpp:47-53). -/
def compress (b : Bytes) : Option Bytes := (C.parse b).map C.compressed
/-- `decompress` (keys.cpp:55-61). -/
def decompress (b : Bytes) : Option Bytes := (C.parse b).map C.uncompressed
/-- `verify_point` (keys.cpp:84-89). -/
def verifyPoint (b : Bytes) : Bool := (C.parse b).isSome

/-- `is_even_key` (keys.cpp:94-97). -/
def isEvenKey (b : Bytes) : Bool := b.head? == some 2
/-- `is_compressed_key` (keys.cpp:99-107). -/
def isCompressedKey (b : Bytes) : Bool := decide (b.length = 33) && (b.head? == some 2 || b.head? == some 3)
/-- `is_uncompressed_key` (keys.cpp:109-117). -/
def isUncompressedKey (b : Bytes) : Bool := decide (b.length = 65) && b.head? == some 4
/-- `is_public_key` (keys.cpp:129-132). -/
def isPublicKey (b : Bytes) : Bool := isCompressedKey b || isUncompressedKey b

/-- `ec_add(point, scalar)` (src/crypto/secp256k1/math.cpp:63-71, 96-100) over `secp256k1_ec_pubkey_tweak_add`, which fails for a
tweak not below the order and for a zero sum. -/
def addPoint (point scalar : Bytes) : Option Bytes :=
  match C.parse point with
  | none => none
  | some p =>
    if beNat scalar < C.order ∧ p + beNat scalar • C.generator ≠ 0 then some (C.compressed (p + beNat scalar • C.generator)) else none

/-- `ec_add(left, right)` of secrets (math.cpp:108-114) over `secp256k1_ec_seckey_tweak_add`, which fails for an invalid secret, a
tweak not below the order and a zero sum. -/
def addSecret (left right : Bytes) : Option Bytes :=
  if verifySecret C left = true ∧ beNat right < C.order ∧ (beNat left + beNat right) % C.order ≠ 0 then
    some (beBytes 32 ((beNat left + beNat right) % C.order))
  else none

/-- `ec_sum` (math.cpp:127-142) of two points and `ec_add(left, right)` of points (116-119) over `secp256k1_ec_pubkey_combine`, which
fails for a zero sum. -/
def addPoints (left right : Bytes) : Option Bytes :=
  match C.parse left, C.parse right with
  | some p, some q => if p + q ≠ 0 then some (C.compressed (p + q)) else none
  | _, _ => none

/-- `ec_multiply(point, scalar)` (math.cpp:73-81, 147-151) over `secp256k1_ec_pubkey_tweak_mul`, which fails for a scalar that is
zero or not below the order. -/
def mulPoint (point scalar : Bytes) : Option Bytes :=
  match C.parse point with
  | none => none
  | some p => if verifySecret C scalar then some (C.compressed (beNat scalar • p)) else none

/-- `ec_multiply(left, right)` of secrets (math.cpp:159-164) over `secp256k1_ec_seckey_tweak_mul`. -/
def mulSecret (left right : Bytes) : Option Bytes :=
  if verifySecret C left && verifySecret C right then some (beBytes 32 ((beNat left * beNat right) % C.order)) else none

/-- `ec_negate(scalar)` (math.cpp:169-173) over `secp256k1_ec_seckey_negate`. -/
def negSecret (s : Bytes) : Option Bytes :=
  if verifySecret C s then some (beBytes 32 (C.order - beNat s)) else none

/-- `ec_negate(point)` (math.cpp:83-91, 175-179). -/
def negPoint (b : Bytes) : Option Bytes := (C.parse b).map fun p => C.compressed (-p)

end Verif.Ec
