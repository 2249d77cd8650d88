/-!
# Model of the screening filters `sieve` and `bloom`

Sources: include/bitcoin/system/filter/{sieve,bloom}.hpp and include/bitcoin/system/impl/filter/{sieve,bloom}.ipp.
A value of `type` (unsigned_type<to_ceilinged_bytes(bits)>) is a natural number below `2 ^ width bits`.
Template arguments are ordinary arguments here.
-/
namespace Verif.Filter

/-- `bits<type>` for `unsigned_type<to_ceilinged_bytes(n)>` (include/bitcoin/system/types.hpp:82-88), 64 for a disabled filter. -/
def width (n : Nat) : Nat := if n = 0 then 64 else if n ≤ 8 then 8 else if n ≤ 16 then 16 else if n ≤ 32 then 32 else 64

/-- bit_right<Value> (include/bitcoin/system/impl/math/bits.ipp:143-153) with overflow to zero. -/
def bitRight (w offset : Nat) : Nat := if offset ≥ w then 0 else 1 <<< offset % 2 ^ w
/-- bit_not (bits.ipp:89-93) at a width. -/
def bitNot (w value : Nat) : Nat := value ^^^ (2 ^ w - 1)
/-- set_right_into (bits.ipp:192-197). -/
def setRight (w target offset : Nat) (state : Bool) : Nat :=
  if state then target ||| bitRight w offset else target &&& bitNot w (bitRight w offset)
/-- get_right (bits.ipp:164-168). -/
def getRight (w value offset : Nat) : Bool := value &&& bitRight w offset != 0
/-- mask_right<Value>(bits) (bits.ipp:229-233): shift_left of all ones, zero on overflow. -/
def maskRight (w bits : Nat) : Nat := if bits ≥ w then 0 else ((2 ^ w - 1) <<< bits) % 2 ^ w
/-- unmask_right<Value>(bits) (bits.ipp:263-267). -/
def unmaskRight (w bits : Nat) : Nat := bitNot w (maskRight w bits)
/-- ones_count (bits.ipp:75-79). -/
def onesCount (w value : Nat) : Nat := (List.range w).countP value.testBit
/-- right_zeros (bits.ipp:57-61): the position of the lowest set bit, the width if there is none. -/
def rightZeros (w value : Nat) : Nat := ((List.range w).find? value.testBit).getD w

/-! ## bloom -/
namespace Bloom

/-- select = ceilinged_log2(M) (bloom.hpp:56; include/bitcoin/system/impl/math/logarithm.ipp:121-129: bit_width(M - 1)). -/
def select (M : Nat) : Nat := if M ≤ 1 then 0 else Nat.log2 (M - 1) + 1
/-- disabled (bloom.hpp:39). -/
def disabled (M K : Nat) : Bool := M == 0 || K == 0
/-- empty (bloom.hpp:53). -/
def empty (M : Nat) : Nat := unmaskRight (width M) M
/-- get_bit (bloom.ipp:87-103). -/
def getBit (M k entropy : Nat) : Nat :=
  let mask := unmaskRight (width M) (select M)
  let shifted := entropy >>> (k * select M)
  let bit := shifted % 2 ^ width M &&& mask
  if mask ≥ M then bit % M else bit
/-- The loop of is_screened (bloom.ipp:43-45). -/
def allClear (M value entropy : Nat) : List Nat → Bool
  | [] => true
  | k :: ks => if getRight (width M) value (getBit M k entropy) then false else allClear M value entropy ks
/-- is_screened (bloom.ipp:31-50). -/
def isScreened (M K value entropy : Nat) : Bool :=
  if disabled M K then true
  else if value = empty M then false
  else allClear M value entropy (List.range K)
/-- screen (bloom.ipp:52-70); `saturated` is zero (bloom.hpp:52). -/
def screen (M K value entropy : Nat) : Nat :=
  if disabled M K then value
  else if value = 0 then value
  else (List.range K).foldl (fun v k => setRight (width M) v (getBit M k entropy) false) value
/-- is_collision (bloom.ipp:25-29). -/
def isCollision (previous next : Nat) : Bool := next == previous

end Bloom

/-! ## sieve -/
namespace Sieve

/-- screen_bits (sieve.hpp:58). -/
def screenBits (S L : Nat) : Nat := S - L
/-- screens = power2(SelectBits) (sieve.hpp:59). -/
def screens (L : Nat) : Nat := 2 ^ L
/-- limit (sieve.hpp:60). -/
def limit (L : Nat) : Nat := screens L - 1
/-- sentinel = sub1(screen_bits) (sieve.hpp:61), size_t. -/
def sentinel (S L : Nat) : Nat := (screenBits S L + (2 ^ 64 - 1)) % 2 ^ 64
/-- empty (sieve.hpp:62). -/
def empty (S : Nat) : Nat := unmaskRight (width S) S
/-- saturated (sieve.hpp:63). -/
def saturated (S L : Nat) : Nat := empty S &&& maskRight (width S) (sentinel S L)
/-- first_mask, select_mask (sieve.hpp:64-65). -/
def firstMask (S L : Nat) : Nat := unmaskRight (width S) (screenBits S L)
/-- disabled (sieve.hpp:40). -/
def disabled (S L : Nat) : Bool := S == 0 || L == 0

/-- generate_offsets (sieve.ipp:173-182): ceilinged_multiply in the width of `type`, halved. -/
def offset (S i : Nat) : Nat := (if i * (i + 1) ≥ 2 ^ width S then 2 ^ width S - 1 else i * (i + 1)) / 2

/-- The while loop of generate_masks (sieve.ipp:208-217) over the two entries it changes, `prior` column and new column. An iteration that
finds no bit does not end the loop in the source (the compiler would not finish); it ends here. -/
def moveBits (w sb : Nat) : Nat → Nat → Nat → Nat × Nat
  | 0, x, y => (x, y)
  | n + 1, x, y =>
    let bit := rightZeros w x
    if bit < sb then moveBits w sb n (setRight w x bit false) (setRight w y bit true) else (x, y)

/-- The target size of a mask (sieve.ipp:203-205). -/
def target (sb row col : Nat) : Nat := sb / (row + 1) + (if col < sb % (row + 1) then 1 else 0)

/-- A table entry. Used for sieve.ipp:197-198. -/
def entry (table : List Nat) (i : Nat) : Nat := table.getD i 0

/-- Copying of the previous row (sieve.ipp:197-198). -/
def copyRow (S : Nat) (row : Nat) (table : List Nat) : List Nat :=
  (List.range row).foldl (fun t col => t.set (offset S row + col) (entry t (offset S (row - 1) + col))) table

/-- One column of the carving loop (sieve.ipp:200-218). -/
def carve (S L row : Nat) (table : List Nat) (col : Nat) : List Nat :=
  let prior := entry table (offset S row + col)
  let bits := onesCount (width S) prior - target (screenBits S L) row col
  let moved := moveBits (width S) (screenBits S L) bits prior (entry table (offset S row + row))
  (table.set (offset S row + col) moved.1).set (offset S row + row) moved.2

/-- One row of generate_masks (sieve.ipp:195-219): columns are carved from `row - 1` down to 0. -/
def nextRow (S L : Nat) (table : List Nat) (row : Nat) : List Nat :=
  (List.range row).reverse.foldl (carve S L row) (copyRow S row table)

/-- generate_masks (sieve.ipp:186-228). -/
def table (S L : Nat) : List Nat :=
  let start := (List.replicate (screens L * (screens L + 1) / 2) 0).set 0 (firstMask S L)
  let rows := ((List.range (screens L)).drop 1).foldl (nextRow S L) start
  (List.range (screens L)).foldl (fun t col =>
    t.set (offset S (limit L) + col) (setRight (width S) (entry t (offset S (limit L) + col)) (sentinel S L) false)) rows

/-- masks (sieve.ipp:164-171). -/
def masks (S L row col : Nat) : Nat := entry (table S L) (offset S row + col)

/-- The loop of is_screened (sieve.ipp:69-78). -/
def anyMatch (S L row value entropy : Nat) : List Nat → Bool
  | [] => false
  | col :: cols =>
    if (value &&& masks S L row col) ^^^ (entropy % 2 ^ width S &&& masks S L row col) = 0 then true
    else anyMatch S L row value entropy cols

/-- is_screened (sieve.ipp:49-82). -/
def isScreened (S L value entropy : Nat) : Bool :=
  if disabled S L then true
  else
    let row := value >>> screenBits S L
    if row = limit L ∧ value = empty S then false
    else if row = limit L ∧ value = saturated S L then true
    else anyMatch S L row value entropy (List.range (row + 1))

/-- The end of screen (sieve.ipp:124-145): the new row is written. -/
def addRow (S L value entropy row : Nat) : Nat :=
  let mask := masks S L row row
  let unmask := bitNot (width S) mask &&& firstMask S L
  let unmask := if row = limit L then setRight (width S) unmask (sentinel S L) false else unmask
  (row <<< screenBits S L) % 2 ^ width S ||| (value &&& unmask ||| entropy % 2 ^ width S &&& mask)

/-- screen (sieve.ipp:84-147). -/
def screen (S L value entropy : Nat) : Nat :=
  if disabled S L then value
  else
    let row := value >>> screenBits S L
    if row = limit L then
      if value = empty S then addRow S L value entropy 0
      else if !isScreened S L value entropy then saturated S L
      else value
    else if isScreened S L value entropy then value
    else addRow S L value entropy (row + 1)

/-- is_collision (sieve.ipp:43-47). -/
def isCollision (S L previous next : Nat) : Bool := next == previous || next == saturated S L

end Sieve
end Verif.Filter
