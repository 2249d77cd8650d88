import Verif.Model.Stream
/-!
# Merkle trees: root, branch and malleability (bytes of a hash are irrelevant, so hashes are an arbitrary type `α` and the
double hash of a pair is an arbitrary function `H`)
-/
namespace Verif.Merkle

variable {α : Type}

/-- `sha::algorithm::merkle_hash_(digests, offset)` (include/bitcoin/system/impl/hash/sha/algorithm_merkle.ipp:333-342): the
in-place loop `for (i = offset, j = offset * 2; i < blocks; ++i, j += 2) digests[i] = double_hash(digests[j], digests[j + 1])`
before the `resize(blocks)`. `n` is `blocks - i`. Reads outside the vector (impossible for `blocks = size / 2`) are `none`. -/
def merkleLoop (H : α → α → α) : Nat → Nat → List α → Option (List α)
  | 0, _, d => some d
  | n + 1, i, d =>
    match d[2 * i]?, d[2 * i + 1]? with
    | some a, some b => merkleLoop H n (i + 1) (d.set i (H a b))
    | _, _ => none

/-- `merkle_hash_` with its `resize` (algorithm_merkle.ipp:333-342). -/
def merkleHashFrom (H : α → α → α) (d : List α) (offset : Nat) : Option (List α) :=
  (merkleLoop H (d.length / 2 - offset) offset d).map fun r => r.take (d.length / 2)

/-- The pair hashes of `lanes` consecutive blocks, all read before any is written (`xinput` ... `xoutput`). Used for algorithm_merkle.ipp:344-387. -/
def laneHashes (H : α → α → α) : Nat → List α → Option (List α)
  | 0, _ => some []
  | n + 1, a :: b :: rest => (laneHashes H n rest).map fun r => H a b :: r
  | _ + 1, _ => none

/-- `merkle_hash_vector<xWord>(digests, blocks)` (algorithm_merkle.ipp:344-387): while at least `lanes` blocks remain, hash
`lanes` blocks in parallel and store the results at the digest cursor. `next` is the number of blocks already done. The
parallel compression itself is the scalar double hash per lane (simplification: lane arithmetic is not modelled). -/
def vectorRound (H : α → α → α) (lanes : Nat) : Nat → Nat → List α → Option (Nat × List α)
  | 0, next, d => some (next, d)
  | fuel + 1, next, d =>
    if lanes ≠ 0 ∧ d.length / 2 - next ≥ lanes then
      match laneHashes H lanes (d.drop (2 * next)) with
      | some r => vectorRound H lanes fuel (next + lanes) (d.take next ++ r ++ d.drop (next + lanes))
      | none => none
    else some (next, d)

/-- `merkle_hash_vector(digests)` (algorithm_merkle.ipp:389-421) for a list of lane widths (16, 8, 4 as compiled in;
`min_lanes` guards the vector part), completed by the scalar loop. -/
def merkleHashVector (H : α → α → α) (minLanes : Nat) (lanes : List Nat) (d : List α) : Option (List α) :=
  let rec rounds : List Nat → Nat → List α → Option (Nat × List α)
    | [], next, d => some (next, d)
    | l :: ls, next, d =>
      match vectorRound H l d.length next d with
      | some (next', d') => rounds ls next' d'
      | none => none
  if d.length ≥ minLanes * 2 then
    match rounds lanes 0 d with
    | some (next, d') => merkleHashFrom H d' next
    | none => none
  else merkleHashFrom H d 0

/-- How the build hashes pairs (algorithm_merkle.ipp:451-473): scalar, or vectorised with some lane widths. -/
inductive Build where
  | scalar
  | vector (minLanes : Nat) (lanes : List Nat)

/-- `merkle_hash` (algorithm_merkle.ipp:451-473). -/
def merkleHash (H : α → α → α) (build : Build) (d : List α) : Option (List α) :=
  match build with
  | .scalar => merkleHashFrom H d 0
  | .vector m l => merkleHashVector H m l d

/-- `if (is_odd(digests.size())) digests.push_back(digests.back())` (algorithm_merkle.ipp:442-443, block.cpp:458). -/
def evened (d : List α) : List α :=
  if d.length % 2 = 1 then match d.getLast? with
    | some a => d ++ [a]
    | none => d
  else d

/-- The `while (!is_one(digests.size()))` loop of `merkle_root` (algorithm_merkle.ipp:440-446); `fuel` bounds the iterations
(each halves the size, so the size is enough: `C15_root` shows the loop never runs out). -/
def rootLoop (H : α → α → α) (build : Build) : Nat → List α → Option (List α)
  | 0, d => if d.length = 1 then some d else none
  | fuel + 1, d =>
    if d.length = 1 then some d
    else match merkleHash H build (evened d) with
      | some r => rootLoop H build fuel r
      | none => none

/-- `merkle_root` (algorithm_merkle.ipp:431-449); `nullHash` is the value-initialised digest returned for no leaves. -/
def merkleRoot (H : α → α → α) (nullHash : α) (build : Build) (d : List α) : Option α :=
  if d.length = 0 then some nullHash
  else match rootLoop H build d.length d with
    | some r => r.head?
    | none => none

/-- The loop of `block::merkle_branch(position, leaves)` (src/chain/block.cpp:456-461). `leaves.at(n)` out of range throws
(here `none`). -/
def branchLoop (H : α → α → α) (build : Build) : Nat → Nat → List α → Option (List α)
  | 0, _, d => if d.length > 1 then none else some []
  | fuel + 1, pos, d =>
    if d.length > 1 then
      match (evened d)[if pos % 2 = 0 then pos + 1 else pos - 1]?, merkleHash H build (evened d) with
      | some s, some r => (branchLoop H build fuel (pos / 2) r).map fun b => s :: b
      | _, _ => none
    else some []

/-- `block::merkle_branch(position, leaves)` (src/chain/block.cpp:448-464). -/
def merkleBranch (H : α → α → α) (build : Build) (pos : Nat) (d : List α) : Option (List α) :=
  if pos ≥ d.length then some [] else branchLoop H build d.length pos d

/-- The loop of static `block::is_malleable32(set, width)` (src/chain/block.cpp:571-580): `depth` doubles, `set` halves. -/
def malleable32Loop : Nat → Nat → Nat → Nat → Bool
  | 0, _, _, _ => false
  | fuel + 1, depth, set, width =>
    if depth ≤ width then
      if set % 2 = 1 then decide (depth = width) && decide (set ≠ 1)
      else malleable32Loop fuel (depth * 2) (set / 2) width
    else false

/-- static `block::is_malleable32(set, width)` (src/chain/block.cpp:571-580). Sizes are unbounded naturals here: a block
never has 2^63 transactions, so `depth *= two` does not wrap. -/
def isMalleable32Width (set width : Nat) : Bool := malleable32Loop (width + 1) 1 set width

/-- `block::is_malleated32(width)` (src/chain/block.cpp:582-597) over the transaction hashes. The loop compares the last
`width` hashes with the `width` before them, from the end. -/
def isMalleated32Width [DecidableEq α] (d : List α) (width : Nat) : Bool :=
  if width = 0 ∨ width > d.length / 2 then false
  else
    let r := d.reverse
    (List.range width).all fun i => decide (r[i]? = r[i + width]?)

/-- The loop of `block::malleated32_size` (src/chain/block.cpp:561-568). -/
def malleated32Loop [DecidableEq α] (d : List α) : Nat → Nat → Nat
  | 0, _ => 0
  | fuel + 1, mally =>
    if mally ≤ d.length / 2 then
      if isMalleable32Width (d.length - mally) mally && isMalleated32Width d mally then mally
      else malleated32Loop d fuel (mally * 2)
    else 0

/-- `block::malleated32_size` (src/chain/block.cpp:559-569). -/
def malleated32Size [DecidableEq α] (d : List α) : Nat := malleated32Loop d (d.length + 1) 1

/-- `block::is_malleated32()` (src/chain/block.cpp:553-557). -/
def isMalleated32 [DecidableEq α] (d : List α) : Bool := decide (malleated32Size d ≠ 0)

/-- The loop of `block::is_malleable32()` (src/chain/block.cpp:544-550). -/
def malleableLoop (size : Nat) : Nat → Nat → Bool
  | 0, _ => false
  | fuel + 1, mally =>
    if mally ≤ size then
      if isMalleable32Width size mally then true else malleableLoop size fuel (mally * 2)
    else false

/-- `block::is_malleable32()` (src/chain/block.cpp:542-551) for a block of `size` transactions. -/
def isMalleable32 (size : Nat) : Bool := malleableLoop size (size + 1) 1

end Verif.Merkle
