import Verif.Spec.Hash
/-!
# Specification of HMAC (RFC 2104), PBKDF2 (RFC 8018) and HKDF (RFC 5869), for any hash function
-/
namespace Verif.Spec.Mac

/-- Bytes. -/
abbrev Octets := List UInt8

/-- Bitwise exclusive or of octet strings of equal length. -/
def xor (a b : Octets) : Octets := List.zipWith (· ^^^ ·) a b

/-- The key as a string of `B` octets: a key longer than the block is hashed first, and zeros are appended. -/
def blockKey (H : Octets → Octets) (B : Nat) (key : Octets) : Octets :=
  let k := if key.length ≤ B then key else H key
  k ++ List.replicate (B - k.length) 0

/-- `HMAC(K, text) = H((K xor opad) || H((K xor ipad) || text))`. -/
def hmac (H : Octets → Octets) (B : Nat) (key text : Octets) : Octets :=
  let k := blockKey H B key
  H (xor k (List.replicate B 0x5c) ++ H (xor k (List.replicate B 0x36) ++ text))

/-- `U_1 = PRF(P, S || INT(i))`, `U_{j+1} = PRF(P, U_j)`. -/
def U (prf : Octets → Octets → Octets) (P S : Octets) (i : Nat) : Nat → Octets
  | 0 => prf P (S ++ Hash.beRep 4 i)
  | j + 1 => prf P (U prf P S i j)

/-- `F(P, S, c, i) = U_1 xor ... xor U_c`. -/
def F (prf : Octets → Octets → Octets) (P S : Octets) (c i : Nat) : Octets :=
  (List.range' 1 (c - 1)).foldl (fun t j => xor t (U prf P S i j)) (U prf P S i 0)

/-- `DK = T_1 || T_2 || ... || T_l<0..r-1>`: the first `dkLen` octets of the concatenation of the blocks. -/
def pbkdf2 (prf : Octets → Octets → Octets) (hLen : Nat) (P S : Octets) (c dkLen : Nat) : Octets :=
  ((List.range ((dkLen + hLen - 1) / hLen)).flatMap fun i => F prf P S c (i + 1)).take dkLen

/-- `T(0) = ""`, `T(n) = HMAC-Hash(PRK, T(n-1) | info | n)`. -/
def hkdfT (mac : Octets → Octets → Octets) (prk info : Octets) : Nat → Octets
  | 0 => []
  | n + 1 => mac prk (hkdfT mac prk info n ++ info ++ [UInt8.ofNat (n + 1)])

/-- `OKM` = first `L` octets of `T(1) | T(2) | ... | T(N)`, `N = ceil(L / HashLen)`. -/
def hkdfExpand (mac : Octets → Octets → Octets) (hashLen : Nat) (prk info : Octets) (L : Nat) : Octets :=
  ((List.range ((L + hashLen - 1) / hashLen)).flatMap fun i => hkdfT mac prk info (i + 1)).take L

/-- `PRK = HMAC-Hash(salt, IKM)` and then the expansion. -/
def hkdf (mac : Octets → Octets → Octets) (hashLen : Nat) (ikm salt info : Octets) (L : Nat) : Octets :=
  hkdfExpand mac hashLen (mac salt ikm) info L

end Verif.Spec.Mac
