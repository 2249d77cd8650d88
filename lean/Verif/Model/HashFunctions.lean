import Verif.Model.Accumulator
/-!
# Hash functions, hashing stream writers, HMAC, PBKDF2 and HKDF
(include/bitcoin/system/impl/hash/functions.ipp, hmac.ipp, pbkd.ipp, hkdf.ipp and impl/stream/streamers/sha256*_writer.ipp)

`b` is the compiled optimisation of the SHA code and `checked` the `Checked` parameter of the accumulator.
-/
namespace Verif.HashFn
open Verif.Hash

variable (b : Sha.Build) (checked : Bool)

/-- `accumulator<sha256>` etc. (include/bitcoin/system/hash/algorithms.hpp:27-40). -/
abbrev acc256 := shaAlgorithm b Sha.sha256
/-- `accumulator<sha512>`. -/
abbrev acc512 := shaAlgorithm b Sha.sha512
/-- `accumulator<sha160>`. -/
abbrev acc160 := shaAlgorithm b Sha.sha160
/-- `accumulator<rmd160>`. -/
abbrev accRmd160 := rmdAlgorithm Rmd.rmd160
/-- `accumulator<rmd128>`. -/
abbrev accRmd128 := rmdAlgorithm Rmd.rmd128

/-- `rmd128_hash` and `rmd128_chunk` (functions.ipp:52-63). -/
def rmd128Hash (data : Bytes) : Bytes := hash accRmd128 checked data
/-- `rmd160_hash` and `rmd160_chunk` (functions.ipp:65-76). -/
def rmd160Hash (data : Bytes) : Bytes := hash accRmd160 checked data
/-- `sha1_hash` and `sha1_chunk` (functions.ipp:78-89). -/
def sha1Hash (data : Bytes) : Bytes := hash (acc160 b) checked data
/-- `sha256_hash` and `sha256_chunk` (functions.ipp:91-96 and 115-119). -/
def sha256Hash (data : Bytes) : Bytes := hash (acc256 b) checked data
/-- `sha256_hash(left, right)` (functions.ipp:98-102). -/
def sha256HashPair (left right : Bytes) : Bytes := Sha.hashHalves b Sha.sha256 left right
/-- `sha256_hash2(left, right)` (functions.ipp:104-113). -/
def sha256Hash2 (left right : Bytes) : Bytes :=
  (flush (acc256 b) checked (write (acc256 b) checked (write (acc256 b) checked (init (acc256 b)) left).2 right).2).1
/-- `sha512_hash` and `sha512_chunk` (functions.ipp:121-132). -/
def sha512Hash (data : Bytes) : Bytes := hash (acc512 b) checked data
/-- `bitcoin_short_hash` (functions.ipp:137-142). -/
def bitcoinShortHash (data : Bytes) : Bytes := Rmd.hashHalf Rmd.rmd160 (hash (acc256 b) checked data)
/-- `bitcoin_short_chunk` (functions.ipp:144-148). -/
def bitcoinShortChunk (data : Bytes) : Bytes := hash accRmd160 checked (hash (acc256 b) checked data)
/-- `bitcoin_hash(data)`, `bitcoin_hash(size, data)` and `bitcoin_chunk` (functions.ipp:150-160 and 180-184). -/
def bitcoinHash (data : Bytes) : Bytes := doubleHash (acc256 b) checked data
/-- `bitcoin_hash(left, right)` (functions.ipp:162-166). -/
def bitcoinHashPair (left right : Bytes) : Bytes := Sha.doubleHashHalves b Sha.sha256 left right
/-- `bitcoin_hash2(left, right)` (functions.ipp:168-178). -/
def bitcoinHash2 (left right : Bytes) : Bytes :=
  doubleFlush (acc256 b) checked (write (acc256 b) checked (write (acc256 b) checked (init (acc256 b)) left).2 right).2
/-- `tagged_hash` (functions.ipp:186-196). -/
def taggedHash (tag message : Bytes) : Bytes :=
  let h := sha256Hash b checked tag
  (flush (acc256 b) checked (writes (acc256 b) checked (init (acc256 b)) [h, h, message])).1

/-- `djb2_hash` (functions.ipp:236-249), for a 64 bit `size_t`. -/
def djb2Hash (data : Bytes) : Nat :=
  data.foldl (fun h byte => (((h * 2 ^ 5) % 2 ^ 64 + h) % 2 ^ 64 + byte.toNat) % 2 ^ 64) 5381

/-- `hash_combine` (functions.ipp:251-257). -/
def hashCombine (left right : Nat) : Nat := left ^^^ ((right * 2) % 2 ^ 64)

/-- `unique_hash` (functions.ipp:224-234) on a little-endian machine with a 64 bit `size_t`. -/
def uniqueHash (key : Bytes) : Nat := leNat (key.take 8)

/-! ### Hashing writers -/

/-- What a caller does with a hashing writer. Used for sha256_writer.ipp:32-86. -/
inductive WriterOp
  | write (data : Bytes)
  | flush

/-- The context of a writer and the bytes written to its stream. Used for sha256_writer.ipp:32-86. -/
structure Writer where
  context : Acc (List (BitVec 32))
  out : Bytes

/-- `sha256_writer` (impl/stream/streamers/sha256_writer.ipp:32-86): `do_write_bytes`, `do_flush`. -/
def sha256Writer (w : Writer) : WriterOp → Writer
  | .write d => { w with context := (write (acc256 b) checked w.context d).2 }
  | .flush =>
    let r := flush (acc256 b) checked w.context
    { context := reset (acc256 b) r.2 Sha.h256 0, out := w.out ++ r.1 }

/-- `sha256x2_writer` (impl/stream/streamers/sha256x2_writer.ipp:32-94). -/
def sha256x2Writer (w : Writer) : WriterOp → Writer
  | .write d => { w with context := (write (acc256 b) checked w.context d).2 }
  | .flush =>
    let r := flush (acc256 b) checked w.context
    let r2 := flush (acc256 b) checked (write (acc256 b) checked (reset (acc256 b) r.2 Sha.h256 0) r.1).2
    { context := reset (acc256 b) r2.2 Sha.h256 0, out := w.out ++ r2.1 }

/-- `sha256t_writer::midstate` (impl/stream/streamers/sha256t_writer.ipp:75-84). -/
def tagMidstate (tag : Bytes) : List (BitVec 32) :=
  let t := Sha.simpleHash b Sha.sha256 tag
  Sha.midstate b Sha.sha256 t t

/-- `sha256t_writer<Tag>` (impl/stream/streamers/sha256t_writer.ipp:32-104). -/
def sha256tWriter (tag : Bytes) (w : Writer) : WriterOp → Writer
  | .write d => { w with context := (write (acc256 b) checked w.context d).2 }
  | .flush =>
    let r := flush (acc256 b) checked w.context
    { context := reset (acc256 b) r.2 (tagMidstate b tag) 1, out := w.out ++ r.1 }

/-- Writers begin with an empty context (`context_{}` or `context_(midstate(), one)`), and a number of calls, ended by the
destructor (which flushes). Used for ring_signature.cpp:40-47, 179-204. -/
def runWriter (step : Writer → WriterOp → Writer) (context : Acc (List (BitVec 32))) (ops : List WriterOp) : Bytes :=
  (step (ops.foldl step ⟨context, []⟩) .flush).out

end Verif.HashFn

namespace Verif.Hmac
open Verif.Hash

variable {σ : Type} (A : Algorithm σ) (checked : Bool)

/-- `hmac<Algorithm>`: `inner_` and `outer_` (include/bitcoin/system/hash/hmac.hpp:64-65). -/
structure State (σ : Type) where
  inner : Acc σ
  outer : Acc σ

/-- `xor_n` (impl/hash/hmac.ipp:82-97): the first bytes of a pad of one block. -/
def xorN (pad key : Bytes) : Bytes := Sha.setMany pad 0 (List.zipWith (· ^^^ ·) (pad.take key.length) key)

/-- `xor_key` with `inner_pad` and `outer_pad` (impl/hash/hmac.ipp:104-147). -/
def xorKey (key : Bytes) : State σ :=
  ⟨(write A checked (init A) (xorN (List.replicate A.blockSize 0x36) key)).2,
   (write A checked (init A) (xorN (List.replicate A.blockSize 0x5c) key)).2⟩

/-- `hmac(key)` (impl/hash/hmac.ipp:32-51). -/
def create (key : Bytes) : State σ :=
  if key.length ≤ A.blockSize then xorKey A checked key else xorKey A checked (hash A checked key)

/-- `write` (impl/hash/hmac.ipp:53-61). -/
def write (h : State σ) (data : Bytes) : State σ := { h with inner := (Hash.write A checked h.inner data).2 }

/-- `flush` (impl/hash/hmac.ipp:63-75). -/
def flush (h : State σ) : Bytes :=
  (Hash.flush A checked (Hash.write A checked h.outer (Hash.flush A checked h.inner).1).2).1

/-- `code` (impl/hash/hmac.ipp:152-161). -/
def code (data key : Bytes) : Bytes := flush A checked (write A checked (create A checked key) data)

/-- `xor_n` of `pbkd` (impl/hash/pbkd.ipp:36-46). -/
def xorEq (to from_ : Bytes) : Bytes := List.zipWith (· ^^^ ·) to from_

/-- One block of `pbkd::key` (impl/hash/pbkd.ipp:97-128): `hmac_p`, `hmac_ps` are reused by value. -/
def pbkdBlock (hmacP hmacPS : State σ) (count i : Nat) : Bytes :=
  let u := flush A checked (write A checked hmacPS (beBytes 4 i))
  ((List.range (count - 1)).foldl (fun (s : Bytes × Bytes) _ =>
    let u := flush A checked (write A checked hmacP s.1)
    (u, xorEq s.2 u)) (u, u)).2

/-- `pbkd<Algorithm>::key<Size>` (impl/hash/pbkd.ipp:55-141); `digest` is `array_count<digest_t>`. Each block is copied whole,
the last one up to `r` bytes. -/
def pbkdKey (digest size : Nat) (password salt : Bytes) (count : Nat) : Bytes :=
  let l := (size + digest - 1) / digest
  let r := size - (l - 1) * digest
  let hmacP := create A checked password
  let hmacPS := write A checked hmacP salt
  (List.range' 1 l).flatMap fun i =>
    let t := pbkdBlock A checked hmacP hmacPS count i
    t.take (if i = l then r else t.length)

/-- `hkdf::extract` (impl/hash/hkdf.ipp:31-38). -/
def hkdfExtract (material salt : Bytes) : Bytes := code A checked material salt

/-- The loop of `hkdf::expand` (impl/hash/hkdf.ipp:51-67) from counter value `block`, a `uint8_t`. `none`: not ended within
`fuel` iterations. -/
def hkdfLoop (blocks remain length : Nat) (key info : Bytes) : Nat → Nat → Bytes → Bytes → Option Bytes
  | 0, _, _, _ => none
  | fuel + 1, block, t, out =>
    if block ≤ blocks then
      let mac := create A checked key
      let mac := if block ≠ 1 then write A checked mac t else mac
      let mac := write A checked mac info
      let mac := write A checked mac [UInt8.ofNat block]
      let t := flush A checked mac
      hkdfLoop blocks remain length key info fuel ((block + 1) % 256) t (out ++ t.take (if block = blocks then remain else length))
    else some out

/-- `hkdf::expand<Size>` (impl/hash/hkdf.ipp:40-69) for up to `fuel` loop tests. -/
def hkdfExpand (fuel digest size : Nat) (key info : Bytes) : Option Bytes :=
  let blocks := (size + digest - 1) / digest
  let remain := size - (blocks - 1) * digest
  hkdfLoop A checked blocks remain digest key info fuel 1 (List.replicate digest 0) []

end Verif.Hmac
