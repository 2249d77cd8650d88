import Verif.Model.Chacha
import Verif.Model.Poly1305
import Verif.Model.Arith
/-!
# Authenticated encryption and the forward secure ciphers

`src/crypto/chacha20_poly1305.cpp`, `src/crypto/fschacha20.cpp`, `src/crypto/fschacha20_poly1305.cpp`. Spans are byte lists: an output
span is the bytes written to it, with the size that the assertions of the functions require. The clearing of local secrets (`key = {}`)
is not modelled.
-/
namespace Verif.Aead
open Verif.Chacha (Cipher)

/-- The instruction sets the library was built for, and found, for each of its two primitives. Used for chacha20_poly1305.cpp:58-82. -/
structure Build where
  cipher : Chacha.Build
  mac : Poly.Build

/-- `padding` (chacha20_poly1305.cpp:40-43): `size_t` is an unsigned 64 bit integer. -/
def padding (size : Nat) : Nat :=
  let t : Arith.Ty := ⟨false, 64, by decide⟩
  (Arith.absolute t.toSigned (Arith.ceilingedModulo t size 16)).toNat

/-- `authenticate` (chacha20_poly1305.cpp:58-82). -/
def authenticate (b : Build) (c : Cipher) (aad text : Bytes) : Cipher × Bytes :=
  let (c, key) := Chacha.stream b.cipher c 32
  let mac := Poly.construct key
  let mac := Poly.write b.mac mac aad
  let mac := Poly.write b.mac mac (List.replicate (padding aad.length) 0)
  let mac := Poly.write b.mac mac text
  let mac := Poly.write b.mac mac (List.replicate (padding text.length) 0)
  let mac := Poly.write b.mac mac (leBytes 8 aad.length)
  let mac := Poly.write b.mac mac (leBytes 8 text.length)
  (c, Poly.flush b.mac mac)

/-- `encrypt` of two segments (chacha20_poly1305.cpp:91-108). -/
def encrypt (b : Build) (c : Cipher) (plain1 plain2 aad : Bytes) (nonce32 : BitVec 32) (nonce64 : BitVec 64) : Cipher × Bytes :=
  let c := Chacha.seek c nonce32 nonce64 1
  let (c, text1) := Chacha.crypt b.cipher c plain1 plain1.length
  let (c, text2) := Chacha.crypt b.cipher c plain2 plain2.length
  let c := Chacha.seek c nonce32 nonce64 0
  let (c, tag) := authenticate b c aad (text1 ++ text2)
  (c, text1 ++ text2 ++ tag)

/-- The comparison of the tags in `decrypt` (chacha20_poly1305.cpp:122-125). -/
def difference (expected actual : Bytes) : UInt8 :=
  (List.range 16).foldl (fun d i => d ||| (expected.getD i 0 ^^^ actual.getD i 0)) 0

/-- `decrypt` (chacha20_poly1305.cpp:110-140): the result and the bytes of `plain`. -/
def decrypt (b : Build) (c : Cipher) (aad : Bytes) (nonce32 : BitVec 32) (nonce64 : BitVec 64) (cipher : Bytes) : Cipher × Bool × Bytes :=
  let size := cipher.length - 16
  let text := cipher.take size
  let c := Chacha.seek c nonce32 nonce64 0
  let (c, expected) := authenticate b c aad text
  let actual := cipher.drop size
  let authenticated := difference expected actual == 0
  if authenticated then
    let c := Chacha.seek c nonce32 nonce64 1
    let (c, plain) := Chacha.crypt b.cipher c text size
    (c, authenticated, plain)
  else (c, authenticated, List.replicate size 0)

/-- `stream` (chacha20_poly1305.cpp:142-148). -/
def stream (b : Build) (c : Cipher) (nonce32 : BitVec 32) (nonce64 : BitVec 64) (size : Nat) : Cipher × Bytes :=
  Chacha.stream b.cipher (Chacha.seek c nonce32 nonce64 1) size

/-! ### `fschacha20_poly1305` -/

/-- The members (fschacha20_poly1305.hpp:61-64). -/
structure Packets where
  interval : BitVec 32
  aead : Cipher
  packets : BitVec 32
  rekeys : BitVec 64

/-- The constructor (fschacha20_poly1305.cpp:33-37). -/
def Packets.construct (key : Bytes) (interval : BitVec 32) : Packets := ⟨interval, Chacha.construct key, 0, 0⟩

/-- `next` (fschacha20_poly1305.cpp:39-53). -/
def Packets.next (b : Build) (s : Packets) : Packets :=
  let s := { s with packets := s.packets + 1 }
  if s.packets = s.interval then
    let (c, key) := stream b s.aead 0xffffffff s.rekeys 32
    { s with aead := Chacha.setKey c key, packets := 0, rekeys := s.rekeys + 1 }
  else s

/-- `encrypt` (fschacha20_poly1305.cpp:61-67). -/
def Packets.encrypt (b : Build) (s : Packets) (plain1 plain2 aad : Bytes) : Packets × Bytes :=
  let (c, out) := Aead.encrypt b s.aead plain1 plain2 aad s.packets s.rekeys
  (Packets.next b { s with aead := c }, out)

/-- `decrypt` (fschacha20_poly1305.cpp:69-75). -/
def Packets.decrypt (b : Build) (s : Packets) (aad cipher : Bytes) : Packets × Bool × Bytes :=
  let (c, ok, out) := Aead.decrypt b s.aead aad s.packets s.rekeys cipher
  (Packets.next b { s with aead := c }, ok, out)

/-! ### `fschacha20` -/

/-- The members (fschacha20.hpp:42-45). -/
structure Chunks where
  cipher : Cipher
  interval : BitVec 32
  chunks : BitVec 32
  rekeys : BitVec 64

/-- The constructor (fschacha20.cpp:32-35). -/
def Chunks.construct (key : Bytes) (interval : BitVec 32) : Chunks := ⟨Chacha.construct key, interval, 0, 0⟩

/-- `crypt` (fschacha20.cpp:37-52). -/
def Chunks.crypt (b : Build) (s : Chunks) (inp : Bytes) : Chunks × Bytes :=
  let (c, out) := Chacha.crypt b.cipher s.cipher inp inp.length
  let s := { s with cipher := c, chunks := s.chunks + 1 }
  if s.chunks = s.interval then
    let (c, key) := Chacha.stream b.cipher s.cipher 32
    let c := Chacha.setKey c key
    let rekeys : BitVec 64 := s.rekeys + 1
    ({ s with cipher := Chacha.seek c 0 rekeys 0, rekeys := rekeys, chunks := 0 }, out)
  else (s, out)

end Verif.Aead
