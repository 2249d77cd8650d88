import Verif.Model.Stream
/-!
# RFC 8439 and BIP324

Written from the texts of the standards (RFC 8439 sections 2.1-2.8; BIP324 "FSChaCha20Poly1305 and FSChaCha20"), using only
little-endian values of byte strings. Nothing here refers to the model of the code.
-/
namespace Verif.Spec.Chacha
open Verif (Bytes leNat leBytes)

/-- RFC 8439 2.1: the quarter round on four 32 bit numbers. -/
def quarterRound : BitVec 32 × BitVec 32 × BitVec 32 × BitVec 32 → BitVec 32 × BitVec 32 × BitVec 32 × BitVec 32 := fun (a, b, c, d) =>
  let a := a + b; let d := d ^^^ a; let d := d.rotateLeft 16
  let c := c + d; let b := b ^^^ c; let b := b.rotateLeft 12
  let a := a + b; let d := d ^^^ a; let d := d.rotateLeft 8
  let c := c + d; let b := b ^^^ c; let b := b.rotateLeft 7
  (a, b, c, d)

/-- RFC 8439 2.2: QUARTERROUND(x, y, z, w) on the state, a vector of sixteen words. -/
def quarterRoundAt (s : List (BitVec 32)) (x y z w : Nat) : List (BitVec 32) :=
  let r := quarterRound (s.getD x 0, s.getD y 0, s.getD z 0, s.getD w 0)
  (((s.set x r.1).set y r.2.1).set z r.2.2.1).set w r.2.2.2

/-- RFC 8439 2.3.1: inner_block, the column rounds and the diagonal rounds. -/
def innerBlock (s : List (BitVec 32)) : List (BitVec 32) :=
  [(0, 4, 8, 12), (1, 5, 9, 13), (2, 6, 10, 14), (3, 7, 11, 15),
   (0, 5, 10, 15), (1, 6, 11, 12), (2, 7, 8, 13), (3, 4, 9, 14)].foldl (fun s q => quarterRoundAt s q.1 q.2.1 q.2.2.1 q.2.2.2) s

/-- The little-endian 32 bit words of a byte string of `n` words. -/
def words (n : Nat) (b : Bytes) : List (BitVec 32) := (List.range n).map fun i => BitVec.ofNat 32 (leNat ((b.drop (4 * i)).take 4))

/-- RFC 8439 2.3: the initial state: "expa nd 3 2-by te k", the key, the block counter and the nonce. -/
def state (key : Bytes) (counter : Nat) (nonce : Bytes) : List (BitVec 32) :=
  [0x61707865, 0x3320646e, 0x79622d32, 0x6b206574] ++ words 8 key ++ [BitVec.ofNat 32 counter] ++ words 3 nonce

/-- Ten inner blocks. -/
def twenty (s : List (BitVec 32)) : List (BitVec 32) := (List.range 10).foldl (fun s _ => innerBlock s) s

/-- RFC 8439 2.3: the block function (a counter beyond 32 bits wraps). -/
def block (key : Bytes) (counter : Nat) (nonce : Bytes) : Bytes :=
  let s := state key counter nonce
  (List.zipWith (· + ·) (twenty s) s).flatMap fun w => leBytes 4 w.toNat

/-- The keystream from a block counter: byte `i` is in block `i / 64` after the first. -/
def keystream (key nonce : Bytes) (counter : Nat) (i : Nat) : UInt8 := (block key (counter + i / 64) nonce).getD (i % 64) 0

/-- The first `n` bytes of the keystream. -/
def keystreamBytes (key nonce : Bytes) (counter n : Nat) : Bytes := (List.range n).map (keystream key nonce counter)

/-- Exclusive or of byte strings. -/
def xor (a b : Bytes) : Bytes := List.zipWith (· ^^^ ·) a b

/-- RFC 8439 2.4: encryption of a text from a block counter. -/
def encrypt (key nonce : Bytes) (counter : Nat) (text : Bytes) : Bytes := xor text (keystreamBytes key nonce counter text.length)

/-! ### Poly1305 -/

/-- The prime 2^130 - 5. -/
def prime : Nat := 2 ^ 130 - 5

/-- RFC 8439 2.5: the clamped first half of the key. -/
def clampedR (key : Bytes) : Nat := leNat (key.take 16) &&& 0x0ffffffc0ffffffc0ffffffc0fffffff

/-- A message divided into blocks of sixteen bytes, the last may be shorter. -/
def chunks (msg : Bytes) : List Bytes := if msg = [] then [] else msg.take 16 :: chunks (msg.drop 16)
termination_by msg.length
decreasing_by cases msg <;> simp_all; omega

/-- RFC 8439 2.5.1: the accumulator: each block as a number with one bit beyond its octets, added, times r, modulo the prime. -/
def accumulate (r : Nat) (blocks : List Bytes) (a : Nat) : Nat := blocks.foldl (fun a b => (a + leNat (b ++ [1])) * r % prime) a

/-- RFC 8439 2.5.1: poly1305_mac. -/
def poly1305 (key msg : Bytes) : Bytes := leBytes 16 (accumulate (clampedR key) (chunks msg) 0 + leNat ((key.drop 16).take 16))

/-! ### The authenticated encryption -/

/-- RFC 8439 2.6: poly1305_key_gen. -/
def macKey (key nonce : Bytes) : Bytes := (block key 0 nonce).take 32

/-- RFC 8439 2.8: pad16. -/
def pad16 (x : Bytes) : Bytes := List.replicate ((16 - x.length % 16) % 16) 0

/-- RFC 8439 2.8: the tag of a ciphertext. -/
def tag (key nonce aad ciphertext : Bytes) : Bytes :=
  poly1305 (macKey key nonce)
    (aad ++ pad16 aad ++ ciphertext ++ pad16 ciphertext ++ leBytes 8 aad.length ++ leBytes 8 ciphertext.length)

/-- RFC 8439 2.8: chacha20_aead_encrypt, the ciphertext and then the tag. -/
def aeadEncrypt (key nonce aad plaintext : Bytes) : Bytes :=
  let c := encrypt key nonce 1 plaintext
  c ++ tag key nonce aad c

/-- RFC 8439 2.8: decryption, none unless the tag is the calculated one. -/
def aeadDecrypt (key nonce aad sealed : Bytes) : Option Bytes :=
  let c := sealed.take (sealed.length - 16)
  if sealed.drop (sealed.length - 16) = tag key nonce aad c then some (encrypt key nonce 1 c) else none

/-! ### BIP324 -/

/-- FSChaCha20Poly1305: the key after `j` rekeyings: the first 32 bytes of the encryption of zeros with nonce
(0xffffffff, j - 1). -/
def packetKey (key : Bytes) : Nat → Bytes
  | 0 => key
  | j + 1 => (aeadEncrypt (packetKey key j) (leBytes 4 0xffffffff ++ leBytes 8 j) [] (List.replicate 32 0)).take 32

/-- FSChaCha20Poly1305: the nonce of packet `n`. -/
def packetNonce (interval n : Nat) : Bytes := leBytes 4 (n % interval) ++ leBytes 8 (n / interval)

/-- FSChaCha20Poly1305: the encryption of packet `n`. -/
def packetSeal (key : Bytes) (interval n : Nat) (aad plaintext : Bytes) : Bytes :=
  aeadEncrypt (packetKey key (n / interval)) (packetNonce interval n) aad plaintext

/-- FSChaCha20Poly1305: the decryption of packet `n`. -/
def packetUnseal (key : Bytes) (interval n : Nat) (aad sealed : Bytes) : Option Bytes :=
  aeadDecrypt (packetKey key (n / interval)) (packetNonce interval n) aad sealed

/-- FSChaCha20: the key, the position in its keystream, and the number of chunks so far. -/
structure Fs where
  key : Bytes
  position : Nat
  chunk : Nat

/-- Keystream bytes of the current key, with nonce (0, chunk / interval). -/
def Fs.keystream (interval : Nat) (s : Fs) (at' n : Nat) : Bytes :=
  (List.range n).map fun i => Chacha.keystream s.key (leBytes 4 0 ++ leBytes 8 (s.chunk / interval)) 0 (at' + i)

/-- FSChaCha20: one chunk. After the last of each interval the key is the next 32 bytes of the keystream. -/
def Fs.crypt (interval : Nat) (s : Fs) (text : Bytes) : Fs × Bytes :=
  (if (s.chunk + 1) % interval = 0 then ⟨s.keystream interval (s.position + text.length) 32, 0, s.chunk + 1⟩
   else ⟨s.key, s.position + text.length, s.chunk + 1⟩, xor text (s.keystream interval s.position text.length))

end Verif.Spec.Chacha
