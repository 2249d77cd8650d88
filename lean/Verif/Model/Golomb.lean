import Verif.Model.Bits
import Verif.Model.Validate
/-!
# Model of Golomb coded sets (`golomb`) and block filters (`neutrino`)

Sources: src/filter/golomb.cpp, src/wallet/neutrino.cpp. `siphash(key, ·)` is an arbitrary function `h` of the item; the key, and
so `h`, is determined by the block hash. Sets are 64 bit numbers as naturals below `2 ^ 64`; `std::sort` is insertion sort (the
sorted list of numbers is the same for every sort).
-/
namespace Verif.Golomb
open Verif Verif.Bit

/-- Insertion into a sorted list. Used for collection.ipp:279-290. -/
def insert {α} (le : α → α → Bool) (x : α) : List α → List α
  | [] => [x]
  | y :: ys => if le x y then x :: y :: ys else y :: insert le x ys

/-- `sort` (include/bitcoin/system/impl/data/collection.ipp:279-290): `std::sort`. -/
def sort {α} (le : α → α → Bool) (l : List α) : List α := l.foldr (insert le) []

/-- `std::unique`, then erase of the tail. Used for collection.ipp:186-192. -/
def unique {α} [DecidableEq α] : List α → List α
  | [] => []
  | [x] => [x]
  | x :: y :: l => if x = y then unique (y :: l) else x :: unique (y :: l)

/-- `operator<=` of `data_chunk`: lexicographic. Used for collection.ipp:186-192. -/
def bytesLe : Bytes → Bytes → Bool
  | [], _ => true
  | _ :: _, [] => false
  | x :: xs, y :: ys => x < y || x == y && bytesLe xs ys

/-- `distinct` (collection.ipp:186-192). -/
def distinct (l : List Bytes) : List Bytes := unique (sort bytesLe l)

/-- `golomb::hash_to_range` (golomb.cpp:195-201). -/
def hashToRange (h : Bytes → Nat) (item : Bytes) (bound : Nat) : Nat := (h item * bound) >>> 64 % 2 ^ 64

/-- `golomb::hashed_set_construct` (golomb.cpp:203-219). -/
def hashedSet (h : Bytes → Nat) (items : List Bytes) (setSize rate : Nat) : List Nat :=
  if rate * setSize ≥ 2 ^ 64 then []
  else sort (fun a b => decide (a ≤ b)) (items.map fun x => hashToRange h x (rate * setSize))

/-- The unary loop of `golomb::encode` (golomb.cpp:178-179). -/
def writeOnes : Nat → Writer → Writer
  | 0, w => w
  | n + 1, w => writeOnes n (w.writeBit true)

/-- `golomb::encode` (golomb.cpp:174-183); `shift_right` by 64 or more is zero (bits.ipp:329-335). -/
def encode (w : Writer) (value bits : Nat) : Writer :=
  let quotient := if bits ≥ 64 then 0 else value >>> bits
  ((writeOnes quotient w).writeBit false).writeBits value bits

/-- Loop of `golomb::construct` (golomb.cpp:44-50). -/
def encodeAll (bits : Nat) : Nat → List Nat → Writer → Writer
  | _, [], w => w
  | previous, value :: set, w => encodeAll bits value set (encode w ((value + 2 ^ 64 - previous) % 2 ^ 64) bits)

/-- `golomb::construct` onto a writer (golomb.cpp:38-51). -/
def constructTo (h : Bytes → Nat) (w : Writer) (items : List Bytes) (bits rate : Nat) : Writer :=
  encodeAll bits 0 (hashedSet h items items.length rate) w

/-- `golomb::construct` (golomb.cpp:53-64). -/
def construct (h : Bytes → Nat) (items : List Bytes) (bits rate : Nat) : Bytes :=
  (constructTo h Writer.init items bits rate).flush.out

/-- The unary loop of `golomb::decode` (golomb.cpp:187-189), with fuel (`unary_fuel`: the fuel given never runs out). -/
def readOnes : Nat → Nat → Bit.Reader → Nat × Bit.Reader
  | 0, q, r => (q, r)
  | fuel + 1, q, r => if r.readBit.1 then readOnes fuel (q + 1) r.readBit.2 else (q, r.readBit.2)

/-- Bits of the stream and of the buffer. Used for golomb.cpp:185-193. -/
def fuelOf (r : Bit.Reader) : Nat := 8 * r.src.data.length + 9

/-- `golomb::decode` (golomb.cpp:185-193); the count of ones is at most the stream size in bits, so it does not wrap. -/
def decode (r : Bit.Reader) (bits : Nat) : Nat × Bit.Reader :=
  let q := readOnes (fuelOf r) 0 r
  let x := q.2.readBits bits
  (((if bits ≥ 64 then 0 else q.1 <<< bits % 2 ^ 64) + x.1) % 2 ^ 64, x.2)

/-- The loop of `golomb::match_single` (golomb.cpp:83-96): `n` rounds are left. -/
def singleLoop (bits range : Nat) : Nat → Nat → Bit.Reader → Bool
  | 0, _, _ => false
  | n + 1, previous, r =>
    let x := decode r bits
    let value := (previous + x.1) % 2 ^ 64
    if value = range then true else if value > range then false else singleLoop bits range n value x.2

/-- `golomb::match_single` on a reader (golomb.cpp:76-99). -/
def matchSingleFrom (h : Bytes → Nat) (r : Bit.Reader) (target : Bytes) (setSize bits rate : Nat) : Bool :=
  singleLoop bits (hashToRange h target (rate * setSize % 2 ^ 64)) setSize 0 r

/-- `golomb::match_single` (golomb.cpp:101-109). -/
def matchSingle (h : Bytes → Nat) (compressed target : Bytes) (setSize bits rate : Nat) : Bool :=
  matchSingleFrom h (Bit.Reader.init compressed) target setSize bits rate

/-- The inner loop of `golomb::match_stack` (golomb.cpp:140-147), `value = *(it++)` at the end of each round. `none`: matched;
otherwise the iterator. -/
def stackInner (range : Nat) : Nat → List Nat → Option (List Nat)
  | _, [] => some []
  | value, v :: it => if value = range then none else if value > range then some (v :: it) else stackInner range v it

/-- The outer loop of `golomb::match_stack` (golomb.cpp:136-148). -/
def stackLoop (bits : Nat) : Nat → Nat → List Nat → Bit.Reader → Bool
  | 0, _, _, _ => false
  | _, _, [], _ => false
  | n + 1, range, v :: it, r =>
    let x := decode r bits
    let range := (range + x.1) % 2 ^ 64
    match stackInner range v (v :: it) with
    | none => true
    | some it => stackLoop bits n range it x.2

/-- `golomb::match_stack` on a reader (golomb.cpp:122-151). -/
def matchStackFrom (h : Bytes → Nat) (r : Bit.Reader) (targets : List Bytes) (setSize bits rate : Nat) : Bool :=
  if targets.isEmpty then false else stackLoop bits setSize 0 (hashedSet h targets setSize rate) r

/-- `golomb::match_stack` (golomb.cpp:153-161). -/
def matchStack (h : Bytes → Nat) (compressed : Bytes) (targets : List Bytes) (setSize bits rate : Nat) : Bool :=
  matchStackFrom h (Bit.Reader.init compressed) targets setSize bits rate

/-! ## neutrino -/

/-- Constants (neutrino.cpp:35-38). -/
def golombBits : Nat := 19
/-- As above, neutrino.cpp:35-38. -/
def golombRate : Nat := 784931

/-- `script::is_pay_op_return_pattern` (script_patterns.ipp:127-131), `op_return` = 106. -/
def isReturn (ops : List Op) : Bool :=
  match ops with
  | [] => false
  | o :: _ => o.code == 106

/-- The scripts of the inputs of a transaction (neutrino.cpp:48-59); `prevout` gives the input's populated prevout. -/
def inputScripts (prevout : Input → Option Output) : List Input → Option (List Bytes)
  | [] => some []
  | i :: is =>
    match prevout i with
    | none => none
    | some o => (inputScripts prevout is).map fun l => if o.script.ops.isEmpty then l else o.script.toData false :: l

/-- The scripts of the outputs of a transaction (neutrino.cpp:61-69). -/
def outputScripts (os : List Output) : List Bytes :=
  os.filterMap fun o => if !o.script.ops.isEmpty && !isReturn o.script.ops then some (o.script.toData false) else none

/-- The scripts of a block (neutrino.cpp:44-70). -/
def blockScripts (prevout : Input → Option Output) : List Tx → Option (List Bytes)
  | [] => some []
  | t :: ts =>
    match if Validate.isCoinbase t then some [] else inputScripts prevout t.inputs with
    | none => none
    | some l => (blockScripts prevout ts).map fun m => l ++ outputScripts t.outputs ++ m

/-- `compute_filter` (neutrino.cpp:40-82); `none` for failure. -/
def computeFilter (h : Bytes → Nat) (prevout : Input → Option Output) (b : Block) : Option Bytes :=
  (blockScripts prevout b.txs).map fun scripts =>
    let scripts := distinct scripts
    (constructTo h (Writer.init.writeBytes (writeVariable scripts.length)) scripts golombBits golombRate).flush.out

/-- `match_filter` for one script (neutrino.cpp:97-115). -/
def matchFilter (h : Bytes → Nat) (filter : Bytes) (script : Script) : Bool :=
  if script.ops.isEmpty then false
  else
    let x := (Bit.Reader.init filter).readVariable
    if !x.2.src.good then false
    else matchSingleFrom h x.2 (script.toData false) x.1 golombBits golombRate

/-- `match_filter` for a list of scripts (neutrino.cpp:117-147). -/
def matchFilters (h : Bytes → Nat) (filter : Bytes) (scripts : List Script) : Bool :=
  if scripts.isEmpty then false
  else
    let stack := (scripts.filter fun s => !s.ops.isEmpty).map fun s => s.toData false
    if stack.isEmpty then false
    else
      let x := (Bit.Reader.init filter).readVariable
      if !x.2.src.good then false
      else matchStackFrom h x.2 stack x.1 golombBits golombRate

end Verif.Golomb
