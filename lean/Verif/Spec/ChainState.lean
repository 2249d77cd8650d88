import Verif.Model.ChainState
/-!
# Specification: chain state computed from the whole header chain

`H n` is the header at height `n`. Nothing here is incremental: every value is read off the chain.
-/
namespace Verif.State.Spec
open Verif

/-- The last `k` values below height `h`, in order of height. -/
def lastK (H : Nat → Blk) (h k : Nat) (f : Blk → Nat) : List Nat := (List.range k).map fun i => f (H (h - k + i))

/-- Sum of the proofs of all blocks up to a height, as 256 bit number. -/
def totalWork (H : Nat → Blk) : Nat → Nat
  | 0 => headerProof (H 0).bits % 2 ^ 256
  | n + 1 => (totalWork H n + headerProof (H (n + 1)).bits) % 2 ^ 256

/-- The data a store supplies for a height: what `get_map` asks for (chain_state.hpp:60-131), null for what it does not. -/
def fromStore (s : Settings) (H : Nat → Blk) (h : Nat) : Data :=
  let m := getMap h s
  let hashAt : Option Nat → Hash := fun o => match o with | some n => (H n).hash | none => nullHash
  { height := h, hash := (H h).hash, deactivateHash := hashAt m.deactivate, bit0Hash := hashAt m.bit0, bit1Hash := hashAt m.bit1
    bit2Hash := hashAt m.bit2, work := totalWork H h
    bits := (H h).bits, bitsOrdered := lastK H h m.bits (·.bits)
    version := (H h).version, versionOrdered := lastK H h m.version (·.version)
    timestamp := (H h).timestamp, retargetTime := (match m.retarget with | some n => (H n).timestamp | none => 0)
    timeOrdered := lastK H h m.timestamp (·.timestamp) }

/-- The states reached from a store-built state by adding headers one at a time. -/
def promoted (s : Settings) (H : Nat → Blk) (h0 : Nat) : Nat → Data
  | 0 => fromStore s H h0
  | n + 1 => toHeader s (promoted s H h0 n) (H (h0 + n + 1))

/-- All BIP9-like checkpoint groups are configured, so that their hashes are requested from the store. -/
structure Configured (f : Forks) : Prop where
  deactivate : f.bip30 = true ∧ f.bip30Deactivate = true
  bit0 : f.bip68 = true ∨ f.bip112 = true ∨ f.bip113 = true
  bit1 : f.bip141 = true ∨ f.bip143 = true ∨ f.bip147 = true
  bit2 : f.bip341 = true ∨ f.bip342 = true

/-- `m` is the upper median: fewer than or half of the values are below it, more than half are at or below it. -/
def IsUpperMedian (l : List Nat) (m : Nat) : Prop :=
  m ∈ l ∧ l.countP (· < m) ≤ l.length / 2 ∧ l.length / 2 < l.countP (· ≤ m)

/-- The bits an intermediate testnet block inherits: those of the latest block below `h` that either does not have the limit
bits or is at a multiple of the interval. -/
def Inherits (H : Nat → Blk) (interval powLimit h bits : Nat) : Prop :=
  ∃ j < h, (H j).bits = bits ∧ (bits ≠ powLimit ∨ j % interval = 0) ∧
    ∀ i, j < i → i < h → (H i).bits = powLimit ∧ i % interval ≠ 0

/-- Bitcoin's retarget rule in unbounded arithmetic: the old target times the time span, confined to a quarter and four times
the intended one, divided by the intended one; not above the limit. -/
def retargetRule (limit minSpan maxSpan span old : Nat) (first last : Nat) : Nat :=
  min limit (old * max minSpan (min maxSpan (last - first)) / span)

/-- The required bits at height `h` above the previous headers, for a block with a given timestamp. -/
def Requires (s : Settings) (H : Nat → Blk) (h time bits : Nat) : Prop :=
  if h = 0 ∨ expand (H (h - 1)).bits = 0 then bits = 0
  else if s.forks.retarget = false then bits = (H (h - 1)).bits
  else if h % s.interval = 0 then
    ∃ target, target = expand (H (h - 1)).bits * max s.minTimespan (min s.maxTimespan ((H (h - 1)).timestamp - (H (h - s.interval)).timestamp))
        / s.intervalSeconds ∧
      bits = if expand s.powLimit < target then s.powLimit else compress target
  else if s.forks.difficult = true then bits = (H (h - 1)).bits
  else if min ((H (h - 1)).timestamp + 2 * s.spacing) (2 ^ 32 - 1) < time then bits = s.powLimit
  else Inherits H s.interval s.powLimit h bits

/-- Blocks with a (signed) version of at least `v` among the last `sample` blocks below `h`. -/
def votes (H : Nat → Blk) (sample h v : Nat) : Nat := (lastK H h (min h sample) (·.version)).countP fun x => decide (signed32 v ≤ signed32 x)

/-- The version is enforced at `h`: by enough votes, or by height where the heights are fixed (BIP90). -/
def Enforced (s : Settings) (H : Nat → Blk) (h v fixed : Nat) : Prop :=
  if s.forks.bip90 then fixed ≤ h else s.enforcement ≤ votes H s.sample h v

/-- The contextual header rules. -/
structure HeaderValid (s : Settings) (H : Nat → Blk) (h : Nat) : Prop where
  version34 : Enforced s H h s.bip34Version s.bip90Bip34 → signed32 s.bip34Version ≤ signed32 (H h).version
  version66 : Enforced s H h s.bip66Version s.bip90Bip66 → signed32 s.bip66Version ≤ signed32 (H h).version
  version65 : Enforced s H h s.bip65Version s.bip90Bip65 → signed32 s.bip65Version ≤ signed32 (H h).version
  time : if h = 0 then 0 < (H h).timestamp else ∀ m, IsUpperMedian (lastK H h (min h 11) (·.timestamp)) m → m < (H h).timestamp
  work : Requires s H h (H h).timestamp (H h).bits
  warp : s.forks.timeWarpPatch = true → h % s.interval = 0 → h ≠ 0 → (H (h - 1)).timestamp ≤ (H h).timestamp + 600

end Verif.State.Spec
