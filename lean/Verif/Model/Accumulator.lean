import Verif.Model.Sha
import Verif.Model.Rmd
/-!
# The streaming hash accumulator and the hash functions built on it
(include/bitcoin/system/hash/accumulator.hpp, include/bitcoin/system/impl/hash/accumulator.ipp)
-/
namespace Verif.Hash

/-- What `accumulator<Algorithm>` uses of its algorithm (`σ` is `state_t`). `doubles` is `half_size == digest_size`; the double
hash members are only instantiable then (`Algorithm::hash(pad())` of the other branch has no overload for a state). Used for algorithm.hpp:66-160. -/
structure Algorithm (σ : Type) where
  blockSize : Nat
  halfSize : Nat
  countSize : Nat
  bigEndCount : Bool
  /-- `Algorithm::H::get` -/
  H : σ
  accumulate : σ → List Bytes → σ
  /-- the state after `finalize(state, blocks)` -/
  finalizeState : σ → Nat → σ
  normalize : σ → Bytes
  hashBlocks : List Bytes → Bytes
  hashBlock : Bytes → Bytes
  hashHalf : Bytes → Bytes
  finalizeSecond : σ → Bytes
  finalizeDouble : σ → Nat → Bytes
  doubleHashBlocks : List Bytes → Bytes
  doubleHashBlock : Bytes → Bytes
  doubleHashHalf : Bytes → Bytes

/-- The members of `accumulator` (accumulator.hpp:162-165): `size_`, `buffer_` (a block) and `state_`. -/
structure Acc (σ : Type) where
  size : Nat
  buffer : Bytes
  state : σ

variable {σ : Type} (A : Algorithm σ) (checked : Bool)

/-- `Algorithm::limit_bytes` (include/bitcoin/system/hash/sha/algorithm.hpp:110-111, rmd/algorithm.hpp:76-77). -/
def limitBytes : Nat := (2 ^ (8 * A.countSize) - 1 - 8 * A.countSize) / 8

/-- `next` (accumulator.ipp:35-40). -/
def next (c : Acc σ) : Nat := c.size % A.blockSize

/-- `gap` (accumulator.ipp:42-47). -/
def gap (c : Acc σ) : Nat := A.blockSize - next A c

/-- `is_full` and `is_empty` (accumulator.ipp:49-62). -/
def isEmpty (c : Acc σ) : Bool := next A c == 0

/-- `is_buffer_overflow` (accumulator.ipp:64-78); the unsigned subtraction is in `count_t`. -/
def isBufferOverflow (c : Acc σ) (size : Nat) : Bool :=
  checked && decide (size > (limitBytes A + 2 ^ (8 * A.countSize) - c.size) % 2 ^ (8 * A.countSize))

/-- `add_data(size, data)` (accumulator.ipp:92-98): copy to the buffer position and count, in `size_t`. -/
def addData (c : Acc σ) (data : Bytes) : Acc σ :=
  { c with buffer := Sha.setMany c.buffer (next A c) data, size := (c.size + data.length) % 2 ^ 64 }

/-- `accumulate(size, data)` (accumulator.ipp:100-125); `none` is the result `false`. -/
def accumulateData (c : Acc σ) (data : Bytes) : Option (Acc σ) :=
  if !isEmpty A c || data.length < A.blockSize then none
  else
    let remain := data.length % A.blockSize
    let bytes := data.length - remain
    let state := A.accumulate c.state (Sha.blocksOf A.blockSize (data.take bytes))
    some (addData A { c with state := state, size := (c.size + bytes) % 2 ^ 64 } (data.drop bytes))

/-- `write(size, data)` (accumulator.ipp:294-327): result and new accumulator. -/
def write (c : Acc σ) (data : Bytes) : Bool × Acc σ :=
  if data.length = 0 then (true, c)
  else match accumulateData A c data with
    | some c => (true, c)
    | none =>
      if isBufferOverflow A checked c data.length then (false, c)
      else
        let accepted := min (gap A c) data.length
        let c := addData A c (data.take accepted)
        if !isEmpty A c then (true, c)
        else
          let c := { c with state := A.accumulate c.state [c.buffer] }
          let data := data.drop accepted
          match accumulateData A c data with
          | some c => (true, c)
          | none => (true, addData A c data)

/-- `pad_size` (accumulator.ipp:193-202). -/
def padSize (c : Acc σ) : Nat :=
  let singled := A.blockSize - A.countSize
  let doubled := A.blockSize + singled
  if next A c < singled then singled - next A c else doubled - next A c

/-- `stream_pad` (accumulator.ipp:204-214): a block with the first byte 0x80. -/
def streamPad : Bytes := 0x80 :: List.replicate (A.blockSize - 1) 0

/-- `serialize` (accumulator.ipp:138-191): the bit count, computed in `size_t`, as `count_size` bytes. -/
def serialize (size : Nat) : Bytes :=
  let bits := (size * 8) % 2 ^ 64
  if A.bigEndCount then beBytes A.countSize bits else leBytes A.countSize bits

/-- `pad` (accumulator.ipp:127-136): the accumulator after both writes (`state_` is what `pad` returns). -/
def pad (c : Acc σ) : Acc σ :=
  let c1 := (write A checked c ((streamPad A).take (padSize A c))).2
  (write A checked c1 (serialize A c.size)).2

/-- `reset(state, blocks)` (accumulator.ipp:241-247); the buffer keeps its content. -/
def reset (c : Acc σ) (state : σ) (blocks : Nat) : Acc σ :=
  { c with state := state, size := (blocks * A.blockSize) % 2 ^ 64 }

/-- `accumulator()` (accumulator.ipp:249-254 and accumulator.hpp:162-165). -/
def init : Acc σ := ⟨0, List.replicate A.blockSize 0, A.H⟩

/-- `accumulator(state, blocks)` (accumulator.ipp:256-267). -/
def initFrom (state : σ) (blocks : Nat) : Acc σ :=
  let c := reset A (init A) state blocks
  if checked && (isBufferOverflow A checked c ((blocks * A.blockSize) % 2 ^ 64) || decide (2 ^ 64 ≤ blocks * A.blockSize))
  then reset A c A.H 0 else c

/-- `flush` (accumulator.ipp:332-364): digest and the accumulator left behind. -/
def flush (c : Acc σ) : Bytes × Acc σ :=
  if isEmpty A c then
    let s := A.finalizeState c.state (c.size / A.blockSize)
    (A.normalize s, { c with state := s })
  else
    let c := pad A checked c
    (A.normalize c.state, c)

/-- `double_flush` (accumulator.ipp:366-412), for `half_size == digest_size`. -/
def doubleFlush (c : Acc σ) : Bytes :=
  if isEmpty A c then A.finalizeDouble c.state (c.size / A.blockSize)
  else A.finalizeSecond (pad A checked c).state

/-- Consecutive `write`s. Used for functions.ipp:186-196. -/
def writes (c : Acc σ) (ws : List Bytes) : Acc σ := ws.foldl (fun c d => (write A checked c d).2) c

/-- `hash(size, data)` and its forwarding overloads (accumulator.ipp:417-484). -/
def hash (data : Bytes) : Bytes :=
  if data.length = 0 then A.hashBlocks []
  else if data.length = A.halfSize then A.hashHalf data
  else if data.length = A.blockSize then A.hashBlock data
  else if data.length % A.blockSize = 0 then A.hashBlocks (Sha.blocksOf A.blockSize data)
  else (flush A checked (write A checked (init A) data).2).1

/-- `double_hash(size, data)` and its forwarding overloads (accumulator.ipp:489-577), for `half_size == digest_size`. -/
def doubleHash (data : Bytes) : Bytes :=
  if data.length = 0 then A.doubleHashBlocks []
  else if data.length = A.halfSize then A.doubleHashHalf data
  else if data.length = A.blockSize then A.doubleHashBlock data
  else if data.length % A.blockSize = 0 then A.doubleHashBlocks (Sha.blocksOf A.blockSize data)
  else doubleFlush A checked (write A checked (init A) data).2

/-- `sha::algorithm<SHA>` as an accumulator algorithm (include/bitcoin/system/hash/sha/algorithm.hpp:66-160,
algorithm_stream.ipp:32-53). -/
def shaAlgorithm {w : Nat} (build : Sha.Build) (p : Sha.Params w) : Algorithm (List (BitVec w)) where
  blockSize := Sha.blockBytes w
  halfSize := Sha.blockBytes w / 2
  countSize := 2 * Sha.wordBytes w
  bigEndCount := true
  H := p.H
  accumulate := Sha.iterate build p
  finalizeState := Sha.finalizeState build p
  normalize := Sha.output p
  hashBlocks := Sha.hashBlocks build p
  hashBlock := fun b => Sha.hashBlocks build p [b]
  hashHalf := Sha.hashHalf build p
  finalizeSecond := Sha.finalizeSecond build p
  finalizeDouble := Sha.finalizeDouble build p
  doubleHashBlocks := Sha.doubleHashBlocks build p
  doubleHashBlock := Sha.doubleHashBlock build p
  doubleHashHalf := Sha.doubleHashHalf build p

/-- `rmd::algorithm<RMD>` as an accumulator algorithm (include/bitcoin/system/hash/rmd/algorithm.hpp:43-100); there is no double
hash (the fields are unused). -/
def rmdAlgorithm (p : Rmd.Params) : Algorithm (List (BitVec 32)) where
  blockSize := 64
  halfSize := 32
  countSize := 8
  bigEndCount := false
  H := p.H
  accumulate := fun s bs => (Rmd.accumulate p s Rmd.words0 bs).1
  finalizeState := Rmd.finalizeState p
  normalize := Rmd.output
  hashBlocks := Rmd.hashBlocks p
  hashBlock := Rmd.hashBlock p
  hashHalf := Rmd.hashHalf p
  finalizeSecond := fun _ => []
  finalizeDouble := fun _ _ => []
  doubleHashBlocks := fun _ => []
  doubleHashBlock := fun _ => []
  doubleHashHalf := fun _ => []

end Verif.Hash
