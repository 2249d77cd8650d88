import Verif.Model.Compact
import Verif.Model.Chain
/-!
# Chain state: fork activation, median time past, required work, promotion

`uint32_t` members are natural numbers (below 2^32 in the code); `size_t` heights are natural numbers, the code's overflow of
`add1(height)` at 2^64 is not modelled.
-/
namespace Verif.State
open Verif

/-- `forks` (include/bitcoin/system/forks.hpp:29-83). -/
structure Forks where
  bip16 : Bool
  bip90 : Bool
  bip30 : Bool
  bip30Deactivate : Bool
  bip30Reactivate : Bool
  bip42 : Bool
  bip34 : Bool
  bip65 : Bool
  bip66 : Bool
  bip68 : Bool
  bip112 : Bool
  bip113 : Bool
  bip141 : Bool
  bip143 : Bool
  bip147 : Bool
  bip341 : Bool
  bip342 : Bool
  retarget : Bool
  difficult : Bool
  timeWarpPatch : Bool
  blockStormPatch : Bool
  ltcTimeWarpPatch : Bool
  ltcRetargetOverflowPatch : Bool
  ltcScrypt : Bool

/-- `chain::checkpoint`: hash and height. Used for settings.hpp:33-120. -/
structure Checkpoint where
  hash : Hash
  height : Nat

/-- The members of `settings` that chain state reads (include/bitcoin/system/settings.hpp:33-120). -/
structure Settings where
  forks : Forks
  powLimit : Nat
  spacing : Nat
  intervalSeconds : Nat
  factor : Nat
  firstVersion : Nat
  bip34Version : Nat
  bip66Version : Nat
  bip65Version : Nat
  bip9Base : Nat
  bip9Bit0 : Nat
  bip9Bit1 : Nat
  bip9Bit2 : Nat
  sample : Nat
  activation : Nat
  enforcement : Nat
  bip16Time : Nat
  bip90Bip34 : Nat
  bip90Bip65 : Nat
  bip90Bip66 : Nat
  reactivateHeight : Nat
  deactivate : Checkpoint
  bit0 : Checkpoint
  bit1 : Checkpoint
  bit2 : Checkpoint

/-- `settings::retargeting_interval` (src/settings.cpp:553-559, chain_state.hpp:147-152). -/
def Settings.interval (s : Settings) : Nat := s.intervalSeconds / s.spacing
/-- `settings::minimum_timespan` (src/settings.cpp:538-543, chain_state.hpp:133-138). -/
def Settings.minTimespan (s : Settings) : Nat := s.intervalSeconds / s.factor
/-- `settings::maximum_timespan` (src/settings.cpp:546-551, chain_state.hpp:140-145); uint32_t multiplication. -/
def Settings.maxTimespan (s : Settings) : Nat := s.intervalSeconds * s.factor % 2 ^ 32

/-- `chain_state::data` (include/bitcoin/system/chain/chain_state.hpp:86-131). -/
structure Data where
  height : Nat
  hash : Hash
  deactivateHash : Hash
  bit0Hash : Hash
  bit1Hash : Hash
  bit2Hash : Hash
  work : Nat
  bits : Nat
  bitsOrdered : List Nat
  version : Nat
  versionOrdered : List Nat
  timestamp : Nat
  retargetTime : Nat
  timeOrdered : List Nat

/-- What chain state reads of a header. Used for chain_state.cpp:723-755. -/
structure Blk where
  hash : Hash
  version : Nat
  bits : Nat
  timestamp : Nat

/-! ## activation -/

/-- `chain::flags` as booleans (include/bitcoin/system/chain/enums/flags.hpp). Used for chain_state.cpp:108-293. -/
structure Flags where
  retarget : Bool
  difficult : Bool
  ltcTimeWarpPatch : Bool
  ltcRetargetOverflowPatch : Bool
  ltcScrypt : Bool
  bip42 : Bool
  bip90 : Bool
  timeWarpPatch : Bool
  blockStormPatch : Bool
  bip16 : Bool
  bip34 : Bool
  bip66 : Bool
  bip65 : Bool
  bit0 : Bool
  bit1 : Bool
  bit2 : Bool
  bip30 : Bool
deriving DecidableEq

/-- `sign_cast<int32_t>` -/
def signed32 (n : Nat) : Int := if n < 2 ^ 31 then n else (n : Int) - 2 ^ 32
/-- `ge` (src/chain/chain_state.cpp:182-185) -/
def ge (value version : Nat) : Bool := decide (signed32 version ≤ signed32 value)
/-- `std::count_if(history, ge_n)` (src/chain/chain_state.cpp:187-198) -/
def countGe (history : List Nat) (version : Nat) : Nat := history.countP fun v => ge v version

/-- `chain_state::is_bip30_exception` (src/chain/chain_state.cpp:44-52, 81-93); the two hashes as parameters. -/
def isBip30Exception (e1 e2 : Hash) (hash : Hash) (height : Nat) : Bool :=
  (decide (hash = e1) && height == 91842) || (decide (hash = e2) && height == 91880)

/-- The flags of `chain_state::activation` (src/chain/chain_state.cpp:108-293). `bit0` stands for the three flags bip68,
bip112 and bip113 set together, `bit1` for bip141, bip143 and bip147, `bit2` for bip341 and bip342. -/
def activationFlags (e1 e2 : Hash) (s : Settings) (d : Data) : Flags :=
  let f := s.forks
  let bip30Deactivate := f.bip30 && f.bip30Deactivate && decide (d.deactivateHash = s.deactivate.hash)
  let bip30Reactivate := bip30Deactivate && f.bip30Reactivate && decide (d.height ≥ s.reactivateHeight)
  { retarget := f.retarget, difficult := f.difficult, ltcTimeWarpPatch := f.ltcTimeWarpPatch,
    ltcRetargetOverflowPatch := f.ltcRetargetOverflowPatch, ltcScrypt := f.ltcScrypt, bip42 := f.bip42, bip90 := f.bip90,
    timeWarpPatch := f.timeWarpPatch, blockStormPatch := f.blockStormPatch,
    bip16 := f.bip16 && decide (d.timestamp ≥ s.bip16Time),
    bip34 := (f.bip90 && decide (d.height ≥ s.bip90Bip34)) ||
      (decide (countGe d.versionOrdered s.bip34Version ≥ s.activation) && decide (d.version ≥ s.bip34Version)),
    bip66 := (f.bip90 && decide (d.height ≥ s.bip90Bip66)) ||
      (decide (countGe d.versionOrdered s.bip66Version ≥ s.activation) && decide (d.version ≥ s.bip66Version)),
    bip65 := (f.bip90 && decide (d.height ≥ s.bip90Bip65)) ||
      (decide (countGe d.versionOrdered s.bip65Version ≥ s.activation) && decide (d.version ≥ s.bip65Version)),
    bit0 := decide (d.bit0Hash = s.bit0.hash),
    bit1 := decide (d.bit1Hash = s.bit1.hash),
    bit2 := decide (d.bit2Hash = s.bit2.hash),
    bip30 := f.bip30 && (!bip30Deactivate || bip30Reactivate) && !isBip30Exception e1 e2 d.hash d.height }

/-- The minimum block version of `chain_state::activation` (src/chain/chain_state.cpp:200-203, 233-249). -/
def minimumVersion (s : Settings) (d : Data) : Nat :=
  let f := s.forks
  if (f.bip90 && decide (d.height ≥ s.bip90Bip65)) || decide (countGe d.versionOrdered s.bip65Version ≥ s.enforcement) then s.bip65Version
  else if (f.bip90 && decide (d.height ≥ s.bip90Bip66)) || decide (countGe d.versionOrdered s.bip66Version ≥ s.enforcement) then s.bip66Version
  else if (f.bip90 && decide (d.height ≥ s.bip90Bip34)) || decide (countGe d.versionOrdered s.bip34Version ≥ s.enforcement) then s.bip34Version
  else 0

/-! ## counts and heights -/

/-- `is_retarget_height` (src/chain/chain_state.cpp:74-79) -/
def isRetargetHeight (height interval : Nat) : Bool := height % interval == 0
/-- `chain_state::bits_count` (src/chain/chain_state.cpp:295-312) -/
def bitsCount (height : Nat) (f : Forks) (interval : Nat) : Nat :=
  if f.difficult then 1 else if !f.retarget then 1 else if isRetargetHeight height interval then 1 else min height interval
/-- `chain_state::version_count` (src/chain/chain_state.cpp:314-321) -/
def versionCount (height : Nat) (f : Forks) (sample : Nat) : Nat :=
  if f.bip90 || (!f.bip34 && !f.bip65 && !f.bip66) then 0 else min height sample
/-- `chain_state::timestamp_count` (src/chain/chain_state.cpp:323-326); median_time_past_interval = 11 -/
def timestampCount (height : Nat) : Nat := min height 11
/-- `chain_state::retarget_height` (src/chain/chain_state.cpp:328-338); `none` is `map::unrequested` -/
def retargetHeight (height : Nat) (f : Forks) (interval : Nat) : Option Nat :=
  if !f.retarget then none
  else some (height - if isRetargetHeight height interval then interval else height % interval)

/-! ## median time past, work required -/

/-- `chain_state::median_time_past` (src/chain/chain_state.cpp:350-360) -/
def medianTimePast (d : Data) : Nat :=
  let times := d.timeOrdered.mergeSort (· ≤ ·)
  times.getD (times.length / 2) 0

/-- `timestamp_high`, `bits_high` (src/chain/chain_state.cpp:95-103); the collections are not empty where they are used -/
def timeHigh (d : Data) : Nat := d.timeOrdered.getLastD 0
/-- As above, chain_state.cpp:95-103. -/
def bitsHigh (d : Data) : Nat := d.bitsOrdered.getLastD 0

/-- `chain_state::retarget_timespan` (src/chain/chain_state.cpp:400-416), `limit` (impl/math/limits.ipp:71-76) -/
def retargetTimespan (d : Data) (min max : Nat) : Nat :=
  let timespan := timeHigh d - d.retargetTime
  if timespan < min then min else if timespan > max then max else timespan

/-- `floored_log2` of a uint256_t (impl/math/logarithm.ipp:241-249): zero for zero -/
def flog2 (n : Nat) : Nat := Nat.log2 n
/-- `patch_timewarp` (src/chain/chain_state.cpp:418-423) -/
def patchTimewarp (f : Forks) (limit target : Nat) : Bool := f.ltcRetargetOverflowPatch && decide (flog2 target ≥ flog2 limit)
/-- `is_retarget_or_non_limit` (src/chain/chain_state.cpp:425-434) -/
def stopsSearch (height bits interval powLimit : Nat) : Bool := bits != powLimit || isRetargetHeight height interval

/-- The reverse loop of work_required_retarget_bits/easy_work_required (src/chain/chain_state.cpp:445-451, 500-506): `height`
is decremented before each test; the list is reversed. -/
def searchBits (interval powLimit : Nat) : Nat → List Nat → Option Nat
  | _, [] => none
  | height, b :: bs => if stopsSearch (height - 1) b interval powLimit then some b else searchBits interval powLimit (height - 1) bs

/-- `chain_state::work_required_retarget_bits` (src/chain/chain_state.cpp:436-455) -/
def retargetBits (s : Settings) (d : Data) : Nat :=
  if s.forks.blockStormPatch then
    match searchBits s.interval s.powLimit d.height d.bitsOrdered.reverse with
    | some b => b
    | none => bitsHigh d
  else bitsHigh d

/-- `chain_state::work_required_retarget` (src/chain/chain_state.cpp:457-480) in 256 bit arithmetic. `limit` is the value of
the function-local static, see `Process`. -/
def workRequiredRetarget (s : Settings) (limit : Nat) (d : Data) : Nat :=
  let target := expand (retargetBits s d)
  let timewarp := if patchTimewarp s.forks limit target then 1 else 0
  let target := target >>> timewarp
  let target := target * retargetTimespan d s.minTimespan s.maxTimespan % 2 ^ 256
  let target := target / s.intervalSeconds
  let target := target * 2 ^ timewarp % 2 ^ 256
  if target > limit then s.powLimit else compress target

/-- `ceilinged_add` for uint32_t -/
def cadd32 (a b : Nat) : Nat := min (a + b) (2 ^ 32 - 1)
/-- `chain_state::easy_work_required` (src/chain/chain_state.cpp:482-512); `shift_left` by one wraps -/
def easyWorkRequired (s : Settings) (d : Data) : Nat :=
  if d.timestamp > cadd32 (timeHigh d) (s.spacing * 2 % 2 ^ 32) then s.powLimit
  else match searchBits s.interval s.powLimit d.height d.bitsOrdered.reverse with
    | some b => b
    | none => s.powLimit

/-- `chain_state::work_required` (src/chain/chain_state.cpp:365-398) -/
def workRequired (s : Settings) (limit : Nat) (d : Data) : Nat :=
  if d.height = 0 then 0
  else if expand (bitsHigh d) = 0 then 0
  else if !s.forks.retarget then bitsHigh d
  else if isRetargetHeight d.height s.interval then workRequiredRetarget s limit d
  else if !s.forks.difficult then easyWorkRequired s d
  else bitsHigh d

/-! ## construction -/

/-- `chain_state::signal_version` (src/chain/chain_state.cpp:620-649) -/
def signalVersion (s : Settings) : Nat :=
  let f := s.forks
  if f.bip341 || f.bip342 then s.bip9Base ||| s.bip9Bit2
  else if f.bip141 || f.bip143 || f.bip147 then s.bip9Base ||| s.bip9Bit1
  else if f.bip68 || f.bip112 || f.bip113 then s.bip9Base ||| s.bip9Bit0
  else if f.bip65 then s.bip65Version
  else if f.bip66 then s.bip66Version
  else if f.bip34 then s.bip34Version
  else s.firstVersion

/-- `push_back`, then `pop_front` if the collection is longer than `count` (src/chain/chain_state.cpp:669-686). -/
def promote (l : List Nat) (x count : Nat) : List Nat := if (l ++ [x]).length > count then (l ++ [x]).tail else l ++ [x]

/-- `chain_state::to_pool` (src/chain/chain_state.cpp:654-709). -/
def toPool (s : Settings) (d : Data) : Data :=
  let f := s.forks
  let height := d.height + 1
  let bitsOrdered := promote d.bitsOrdered d.bits (bitsCount height f s.interval)
  let versionOrdered := promote d.versionOrdered d.version (versionCount height f s.sample)
  let timeOrdered := promote d.timeOrdered d.timestamp (timestampCount height)
  let retargetTime :=
    if f.retarget && isRetargetHeight (height - 1) s.interval then
      if f.ltcTimeWarpPatch && height != 1 then timeOrdered.reverse.getD 1 0 else d.timestamp
    else d.retargetTime
  { d with height, hash := nullHash, bits := 0, bitsOrdered, version := signalVersion s, versionOrdered, retargetTime, timeOrdered }

/-- The caching of checkpoint hashes (src/chain/chain_state.cpp:738-752, 785-799). -/
def cacheHashes (s : Settings) (d : Data) : Data :=
  { d with
    deactivateHash := if d.height = s.deactivate.height then d.hash else d.deactivateHash
    bit0Hash := if d.height = s.bit0.height then d.hash else d.bit0Hash
    bit1Hash := if d.height = s.bit1.height then d.hash else d.bit1Hash
    bit2Hash := if d.height = s.bit2.height then d.hash else d.bit2Hash }

/-- `chain_state::to_block` (src/chain/chain_state.cpp:723-755); note `data.hash = {}`. -/
def toBlock (s : Settings) (d : Data) (b : Blk) : Data :=
  cacheHashes s { d with hash := nullHash, bits := b.bits, version := b.version, timestamp := b.timestamp,
                         work := (d.work + headerProof b.bits) % 2 ^ 256 }

/-- `chain_state::to_header` (src/chain/chain_state.cpp:769-802). -/
def toHeader (s : Settings) (d : Data) (b : Blk) : Data :=
  cacheHashes s { toPool s d with hash := b.hash, bits := b.bits, version := b.version, timestamp := b.timestamp,
                                  work := ((toPool s d).work + headerProof b.bits) % 2 ^ 256 }

/-- `chain_state::map` and `get_map` (chain_state.hpp:60-84, src/chain/chain_state.cpp:514-618); each range is a count ending
below the height, `none` is `map::unrequested`. -/
structure Map where
  bits : Nat
  version : Nat
  timestamp : Nat
  retarget : Option Nat
  deactivate : Option Nat
  bit0 : Option Nat
  bit1 : Option Nat
  bit2 : Option Nat

/-- As above, chain_state.cpp:514-618. -/
def getMap (height : Nat) (s : Settings) : Map :=
  let f := s.forks
  if height = 0 then ⟨0, 0, 0, some 0, none, none, none, none⟩
  else
    { bits := bitsCount height f s.interval
      version := versionCount height f s.sample
      timestamp := timestampCount height
      retarget := retargetHeight height f s.interval
      deactivate := if f.bip30 && f.bip30Deactivate then (if height < s.deactivate.height then none else some s.deactivate.height) else none
      bit0 := if f.bip68 || f.bip112 || f.bip113 then (if height < s.bit0.height then none else some s.bit0.height) else none
      bit1 := if f.bip141 || f.bip143 || f.bip147 then (if height < s.bit1.height then none else some s.bit1.height) else none
      bit2 := if f.bip341 || f.bip342 then (if height < s.bit2.height then none else some s.bit2.height) else none }

/-- Everything a chain state tells its user: `context()`, `hash()` and `cumulative_work()`
(src/chain/chain_state.cpp:827-889). -/
structure View where
  flags : Flags
  timestamp : Nat
  medianTimePast : Nat
  height : Nat
  minimumVersion : Nat
  workRequired : Nat
  previousTimestamp : Nat
  hash : Hash
  work : Nat
deriving DecidableEq

/-- The constructors' computed members (src/chain/chain_state.cpp:711-825) and the properties. -/
def view (e1 e2 : Hash) (s : Settings) (limit : Nat) (d : Data) : View where
  flags := activationFlags e1 e2 s d
  timestamp := d.timestamp
  medianTimePast := medianTimePast d
  height := d.height
  minimumVersion := minimumVersion s d
  workRequired := workRequired s limit d
  previousTimestamp := timeHigh d
  hash := d.hash
  work := d.work

/-! ## header validation in context -/

/-- As above, chain_state.cpp:711-825. -/
inductive HeaderCode where
  | insufficient_block_version | anachronistic_timestamp | incorrect_proof_of_work | early_timestamp | invalid_proof_of_work
  | futuristic_timestamp
deriving DecidableEq, Repr

/-- `context::is_insufficient_version` etc. (include/bitcoin/system/chain/context.hpp:40-69), max_timewarp = 600;
`header::accept` (src/chain/header.cpp:379-393) -/
def headerAccept (v : View) (interval : Nat) (b : Blk) : Option HeaderCode :=
  if v.minimumVersion != 0 && decide (signed32 b.version < signed32 v.minimumVersion) then some .insufficient_block_version
  else if b.timestamp ≤ v.medianTimePast then some .anachronistic_timestamp
  else if b.bits ≠ v.workRequired then some .incorrect_proof_of_work
  else if v.flags.timeWarpPatch && v.height % interval == 0 && decide (v.timestamp < v.previousTimestamp - 600) then some .early_timestamp
  else none

/-- `header::is_invalid_proof_of_work` (src/chain/header.cpp:325-344); `limit` is the function-local static, `hash` the
header's (scrypt) hash as a number. -/
def isInvalidProofOfWork (limit bits hash : Nat) : Bool :=
  let target := expand bits
  if target = 0 then true else if target > limit then true else decide (hash > target)

/-- The value of a function-local static initialised by the first call (`static const auto limit = ...`) (header.cpp:325-344). -/
abbrev Static := Option Nat
/-- A call in a process in which the static is `p`: the value it sees and the static afterwards (header.cpp:325-344). -/
def callStatic (p : Static) (new : Nat) : Nat × Static :=
  match p with
  | some x => (x, some x)
  | none => (new, some new)

/-- `is_invalid_proof_of_work` as a step of a process (header.cpp:325-344). -/
def stepProofOfWork (p : Static) (powLimit bits hash : Nat) : Bool × Static :=
  let (limit, p') := callStatic p (expand powLimit)
  (isInvalidProofOfWork limit bits hash, p')
/-- `work_required` as a step of a process (chain_state.cpp:365-396, 457-480): the static is only touched by a retarget. -/
def stepWorkRequired (p : Static) (s : Settings) (d : Data) : Nat × Static :=
  let reaches := d.height ≠ 0 ∧ expand (bitsHigh d) ≠ 0 ∧ s.forks.retarget = true ∧ isRetargetHeight d.height s.interval = true
  if reaches then
    let (limit, p') := callStatic p (expand s.powLimit)
    (workRequired s limit d, p')
  else (workRequired s 0 d, p)

end Verif.State
