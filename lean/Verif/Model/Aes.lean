import Verif.Model.Stream
/-!
# AES-256

Models src/crypto/aes256.cpp. Blocks and keys are lists of 16 and 32 bytes. Loops that assign each position from itself only are
written as a map.
-/
namespace Verif.Aes
open Verif

/-- `sbox` (src/crypto/aes256.cpp:58-92). -/
def sboxTable : Bytes := [
  0x63, 0x7c, 0x77, 0x7b, 0xf2, 0x6b, 0x6f, 0xc5, 0x30, 0x01, 0x67, 0x2b, 0xfe, 0xd7, 0xab, 0x76,
  0xca, 0x82, 0xc9, 0x7d, 0xfa, 0x59, 0x47, 0xf0, 0xad, 0xd4, 0xa2, 0xaf, 0x9c, 0xa4, 0x72, 0xc0,
  0xb7, 0xfd, 0x93, 0x26, 0x36, 0x3f, 0xf7, 0xcc, 0x34, 0xa5, 0xe5, 0xf1, 0x71, 0xd8, 0x31, 0x15,
  0x04, 0xc7, 0x23, 0xc3, 0x18, 0x96, 0x05, 0x9a, 0x07, 0x12, 0x80, 0xe2, 0xeb, 0x27, 0xb2, 0x75,
  0x09, 0x83, 0x2c, 0x1a, 0x1b, 0x6e, 0x5a, 0xa0, 0x52, 0x3b, 0xd6, 0xb3, 0x29, 0xe3, 0x2f, 0x84,
  0x53, 0xd1, 0x00, 0xed, 0x20, 0xfc, 0xb1, 0x5b, 0x6a, 0xcb, 0xbe, 0x39, 0x4a, 0x4c, 0x58, 0xcf,
  0xd0, 0xef, 0xaa, 0xfb, 0x43, 0x4d, 0x33, 0x85, 0x45, 0xf9, 0x02, 0x7f, 0x50, 0x3c, 0x9f, 0xa8,
  0x51, 0xa3, 0x40, 0x8f, 0x92, 0x9d, 0x38, 0xf5, 0xbc, 0xb6, 0xda, 0x21, 0x10, 0xff, 0xf3, 0xd2,
  0xcd, 0x0c, 0x13, 0xec, 0x5f, 0x97, 0x44, 0x17, 0xc4, 0xa7, 0x7e, 0x3d, 0x64, 0x5d, 0x19, 0x73,
  0x60, 0x81, 0x4f, 0xdc, 0x22, 0x2a, 0x90, 0x88, 0x46, 0xee, 0xb8, 0x14, 0xde, 0x5e, 0x0b, 0xdb,
  0xe0, 0x32, 0x3a, 0x0a, 0x49, 0x06, 0x24, 0x5c, 0xc2, 0xd3, 0xac, 0x62, 0x91, 0x95, 0xe4, 0x79,
  0xe7, 0xc8, 0x37, 0x6d, 0x8d, 0xd5, 0x4e, 0xa9, 0x6c, 0x56, 0xf4, 0xea, 0x65, 0x7a, 0xae, 0x08,
  0xba, 0x78, 0x25, 0x2e, 0x1c, 0xa6, 0xb4, 0xc6, 0xe8, 0xdd, 0x74, 0x1f, 0x4b, 0xbd, 0x8b, 0x8a,
  0x70, 0x3e, 0xb5, 0x66, 0x48, 0x03, 0xf6, 0x0e, 0x61, 0x35, 0x57, 0xb9, 0x86, 0xc1, 0x1d, 0x9e,
  0xe1, 0xf8, 0x98, 0x11, 0x69, 0xd9, 0x8e, 0x94, 0x9b, 0x1e, 0x87, 0xe9, 0xce, 0x55, 0x28, 0xdf,
  0x8c, 0xa1, 0x89, 0x0d, 0xbf, 0xe6, 0x42, 0x68, 0x41, 0x99, 0x2d, 0x0f, 0xb0, 0x54, 0xbb, 0x16]

/-- `sbox_inverse` (aes256.cpp:94-128). -/
def inverseTable : Bytes := [
  0x52, 0x09, 0x6a, 0xd5, 0x30, 0x36, 0xa5, 0x38, 0xbf, 0x40, 0xa3, 0x9e, 0x81, 0xf3, 0xd7, 0xfb,
  0x7c, 0xe3, 0x39, 0x82, 0x9b, 0x2f, 0xff, 0x87, 0x34, 0x8e, 0x43, 0x44, 0xc4, 0xde, 0xe9, 0xcb,
  0x54, 0x7b, 0x94, 0x32, 0xa6, 0xc2, 0x23, 0x3d, 0xee, 0x4c, 0x95, 0x0b, 0x42, 0xfa, 0xc3, 0x4e,
  0x08, 0x2e, 0xa1, 0x66, 0x28, 0xd9, 0x24, 0xb2, 0x76, 0x5b, 0xa2, 0x49, 0x6d, 0x8b, 0xd1, 0x25,
  0x72, 0xf8, 0xf6, 0x64, 0x86, 0x68, 0x98, 0x16, 0xd4, 0xa4, 0x5c, 0xcc, 0x5d, 0x65, 0xb6, 0x92,
  0x6c, 0x70, 0x48, 0x50, 0xfd, 0xed, 0xb9, 0xda, 0x5e, 0x15, 0x46, 0x57, 0xa7, 0x8d, 0x9d, 0x84,
  0x90, 0xd8, 0xab, 0x00, 0x8c, 0xbc, 0xd3, 0x0a, 0xf7, 0xe4, 0x58, 0x05, 0xb8, 0xb3, 0x45, 0x06,
  0xd0, 0x2c, 0x1e, 0x8f, 0xca, 0x3f, 0x0f, 0x02, 0xc1, 0xaf, 0xbd, 0x03, 0x01, 0x13, 0x8a, 0x6b,
  0x3a, 0x91, 0x11, 0x41, 0x4f, 0x67, 0xdc, 0xea, 0x97, 0xf2, 0xcf, 0xce, 0xf0, 0xb4, 0xe6, 0x73,
  0x96, 0xac, 0x74, 0x22, 0xe7, 0xad, 0x35, 0x85, 0xe2, 0xf9, 0x37, 0xe8, 0x1c, 0x75, 0xdf, 0x6e,
  0x47, 0xf1, 0x1a, 0x71, 0x1d, 0x29, 0xc5, 0x89, 0x6f, 0xb7, 0x62, 0x0e, 0xaa, 0x18, 0xbe, 0x1b,
  0xfc, 0x56, 0x3e, 0x4b, 0xc6, 0xd2, 0x79, 0x20, 0x9a, 0xdb, 0xc0, 0xfe, 0x78, 0xcd, 0x5a, 0xf4,
  0x1f, 0xdd, 0xa8, 0x33, 0x88, 0x07, 0xc7, 0x31, 0xb1, 0x12, 0x10, 0x59, 0x27, 0x80, 0xec, 0x5f,
  0x60, 0x51, 0x7f, 0xa9, 0x19, 0xb5, 0x4a, 0x0d, 0x2d, 0xe5, 0x7a, 0x9f, 0x93, 0xc9, 0x9c, 0xef,
  0xa0, 0xe0, 0x3b, 0x4d, 0xae, 0x2a, 0xf5, 0xb0, 0xc8, 0xeb, 0xbb, 0x3c, 0x83, 0x53, 0x99, 0x61,
  0x17, 0x2b, 0x04, 0x7e, 0xba, 0x77, 0xd6, 0x26, 0xe1, 0x69, 0x14, 0x63, 0x55, 0x21, 0x0c, 0x7d]

/-- `sbox[byte]`. Used for aes256.cpp:142-147. -/
def sbox (a : UInt8) : UInt8 := sboxTable.getD a.toNat 0
/-- `sbox_inverse[byte]`. Used for aes256.cpp:149-154. -/
def sboxInverse (a : UInt8) : UInt8 := inverseTable.getD a.toNat 0

/-- `f_enc_key` (aes256.cpp:130-134); `get_left` is the most significant bit. -/
def encKey (a : UInt8) : UInt8 := (a <<< 1) ^^^ (if a &&& 0x80 ≠ 0 then 0x1b else 0)
/-- `f_dec_key` (aes256.cpp:136-140). -/
def decKey (a : UInt8) : UInt8 := (a >>> 1) ^^^ (if a &&& 1 ≠ 0 then 0x8d else 0)

/-- `x[i]`. Used for aes256.cpp:156-162. -/
def at_ (x : Bytes) (i : Nat) : UInt8 := x.getD i 0
/-- `x[i] = v`. Used for aes256.cpp:185-206. -/
def put (x : Bytes) (i : Nat) (v : UInt8) : Bytes := x.set i v
/-- `x[i] ^= v`. Used for aes256.cpp:235-245. -/
def flip (x : Bytes) (i : Nat) (v : UInt8) : Bytes := x.set i (x.getD i 0 ^^^ v)

/-- `sub_bytes` (aes256.cpp:142-147). -/
def subBytes (s : Bytes) : Bytes := s.map sbox
/-- `sub_bytes_inverse` (aes256.cpp:149-154). -/
def subBytesInverse (s : Bytes) : Bytes := s.map sboxInverse

/-- `add_round_key_lower` (aes256.cpp:156-162), also the effect of `add_round_key_copy` (172-183) on the block. -/
def addLower (s key : Bytes) : Bytes := (List.range 16).map fun i => at_ s i ^^^ at_ key i
/-- `add_round_key_upper` (aes256.cpp:164-170). -/
def addUpper (s key : Bytes) : Bytes := (List.range 16).map fun i => at_ s i ^^^ at_ key (i + 16)

/-- `shift_rows` (aes256.cpp:185-206). -/
def shiftRows (s : Bytes) : Bytes :=
  let i := at_ s 1
  let s := put s 1 (at_ s 5)
  let s := put s 5 (at_ s 9)
  let s := put s 9 (at_ s 13)
  let s := put s 13 i
  let i := at_ s 10
  let s := put s 10 (at_ s 2)
  let s := put s 2 i
  let j := at_ s 3
  let s := put s 3 (at_ s 15)
  let s := put s 15 (at_ s 11)
  let s := put s 11 (at_ s 7)
  let s := put s 7 j
  let j := at_ s 14
  let s := put s 14 (at_ s 6)
  put s 6 j

/-- `shift_rows_inverse` (aes256.cpp:208-229). -/
def shiftRowsInverse (s : Bytes) : Bytes :=
  let i := at_ s 1
  let s := put s 1 (at_ s 13)
  let s := put s 13 (at_ s 9)
  let s := put s 9 (at_ s 5)
  let s := put s 5 i
  let i := at_ s 2
  let s := put s 2 (at_ s 10)
  let s := put s 10 i
  let j := at_ s 3
  let s := put s 3 (at_ s 7)
  let s := put s 7 (at_ s 11)
  let s := put s 11 (at_ s 15)
  let s := put s 15 j
  let j := at_ s 6
  let s := put s 6 (at_ s 14)
  put s 14 j

/-- The body of `mix_columns` (aes256.cpp:235-245). -/
def mixColumn (s : Bytes) (i : Nat) : Bytes :=
  let a := at_ s (i + 0)
  let b := at_ s (i + 1)
  let c := at_ s (i + 2)
  let d := at_ s (i + 3)
  let e := a ^^^ b ^^^ c ^^^ d
  let s := flip s (i + 0) (e ^^^ encKey (a ^^^ b))
  let s := flip s (i + 1) (e ^^^ encKey (b ^^^ c))
  let s := flip s (i + 2) (e ^^^ encKey (c ^^^ d))
  flip s (i + 3) (e ^^^ encKey (d ^^^ a))
/-- `mix_columns` (aes256.cpp:231-246). -/
def mixColumns (s : Bytes) : Bytes := [0, 4, 8, 12].foldl mixColumn s

/-- The body of `mix_columns_inverse` (aes256.cpp:252-266). -/
def mixColumnInverse (s : Bytes) (i : Nat) : Bytes :=
  let a := at_ s (i + 0)
  let b := at_ s (i + 1)
  let c := at_ s (i + 2)
  let d := at_ s (i + 3)
  let e := a ^^^ b ^^^ c ^^^ d
  let z := encKey e
  let x := e ^^^ encKey (encKey (z ^^^ a ^^^ c))
  let y := e ^^^ encKey (encKey (z ^^^ b ^^^ d))
  let s := flip s (i + 0) (x ^^^ encKey (a ^^^ b))
  let s := flip s (i + 1) (y ^^^ encKey (b ^^^ c))
  let s := flip s (i + 2) (x ^^^ encKey (c ^^^ d))
  flip s (i + 3) (y ^^^ encKey (d ^^^ a))
/-- `mix_columns_inverse` (aes256.cpp:248-267). -/
def mixColumnsInverse (s : Bytes) : Bytes := [0, 4, 8, 12].foldl mixColumnInverse s

/-- The body of the loops of `expand_key` and `expand_key_inverse` (aes256.cpp:278-282, 291-295, 303-307 and 317-321). -/
def chain (key : Bytes) (i : Nat) : Bytes :=
  let key := flip key (i + 0) (at_ key (i - 4))
  let key := flip key (i + 1) (at_ key (i - 3))
  let key := flip key (i + 2) (at_ key (i - 2))
  flip key (i + 3) (at_ key (i - 1))

/-- Assignments of `key[16]` to `key[19]` (aes256.cpp:285-288 and 310-313). -/
def middle (key : Bytes) : Bytes :=
  let key := flip key 16 (sbox (at_ key 12))
  let key := flip key 17 (sbox (at_ key 13))
  let key := flip key 18 (sbox (at_ key 14))
  flip key 19 (sbox (at_ key 15))

/-- Assignments of `key[0]` to `key[3]` (aes256.cpp:271-274 and 323-326). -/
def first (key : Bytes) (round : UInt8) : Bytes :=
  let key := flip key 0 (sbox (at_ key 29) ^^^ round)
  let key := flip key 1 (sbox (at_ key 30))
  let key := flip key 2 (sbox (at_ key 31))
  flip key 3 (sbox (at_ key 28))

/-- `expand_key` (aes256.cpp:269-297). -/
def expandKey (k : Bytes × UInt8) : Bytes × UInt8 :=
  ([20, 24, 28].foldl chain (middle ([4, 8, 12].foldl chain (first k.1 k.2))), encKey k.2)

/-- `expand_key_inverse` (aes256.cpp:299-327). -/
def expandKeyInverse (k : Bytes × UInt8) : Bytes × UInt8 :=
  let key := [12, 8, 4].foldl chain (middle ([28, 24, 20].foldl chain k.1))
  let round := decKey k.2
  (first key round, round)

/-- `initialize` (aes256.cpp:332-340): the key for decryption. -/
def decryptionKey (key : Bytes) : Bytes := ((List.range 7).foldl (fun k _ => expandKey k) (key, 1)).1

/-- The body of the loop of `encrypt_ecb` (aes256.cpp:348-361): block, and key with round. -/
def encryptRound (s : Bytes × Bytes × UInt8) (i : Nat) : Bytes × Bytes × UInt8 :=
  let bytes := mixColumns (shiftRows (subBytes s.1))
  if i % 2 = 0 then (addUpper bytes s.2.1, s.2)
  else
    let k := expandKey s.2
    (addLower bytes k.1, k)

/-- `encrypt_ecb` (aes256.cpp:342-368 and 400-405). -/
def encrypt (bytes key : Bytes) : Bytes :=
  let s := (List.range 13).foldl encryptRound (addLower bytes key, key, 1)
  addLower (shiftRows (subBytes s.1)) (expandKey s.2).1

/-- The body of the loop of `decrypt_ecb` (aes256.cpp:377-392). -/
def decryptRound (s : Bytes × Bytes × UInt8) (i : Nat) : Bytes × Bytes × UInt8 :=
  let s := if i % 2 = 0 then (let k := expandKeyInverse s.2; (addUpper s.1 k.1, k)) else (addLower s.1 s.2.1, s.2)
  (subBytesInverse (shiftRowsInverse (mixColumnsInverse s.1)), s.2)

/-- `decrypt_ecb` (aes256.cpp:370-395 and 407-412). -/
def decrypt (bytes key : Bytes) : Bytes :=
  let deckey := decryptionKey key
  let s := (List.range 13).foldl decryptRound (subBytesInverse (shiftRowsInverse (addLower bytes deckey)), deckey, 0x80)
  addLower s.1 s.2.1

end Verif.Aes
