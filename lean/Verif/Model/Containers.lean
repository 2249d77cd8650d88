import Verif.Model.Stream
/-!
# Byte slices, byte arrays and collection utilities

Source: include/bitcoin/system/impl/data/data_slice.ipp, data_slab.ipp, data_array.ipp, collection.ipp, src/data/data_chunk.cpp.

Memory is a list of bytes; a pointer is a position in it and a dereference outside it is `none` (undefined behaviour in the code).
`std::sort`, `std::unique`, `std::find`, `std::upper_bound`, `std::copy` are as the standard specifies them.
-/
namespace Verif.Containers
open Verif

/-- `data_slice` (include/bitcoin/system/data/data_slice.hpp): a first position and a size (the end pointer is their sum). Used for data_slice.ipp:36-45. -/
structure Slice where
  start : Nat
  size : Nat
deriving DecidableEq, Repr

/-- The default slice (data_slice.ipp:36-45). -/
def Slice.none : Slice := ⟨0, 0⟩

/-- Dereference. Used for data_slice.ipp:254-259. -/
def deref (mem : Bytes) (p : Nat) : Option UInt8 := mem[p]?

/-- `data_slice::from_size` (data_slice.ipp:126-143). -/
def fromSize (start size : Nat) : Slice := if size = 0 then .none else ⟨start, size⟩

/-- `data_slice::from_literal` (data_slice.ipp:93-105): without the null terminator. -/
def fromLiteral (start size : Nat) : Slice := if size = 0 then .none else fromSize start (size - 1)

/-- `data_slice::from_iterators` (data_slice.ipp:107-124). -/
def fromIterators (first last : Nat) : Slice :=
  let size : Int := (last : Int) - (first : Int)
  if size < 0 ∨ size = 0 then .none else fromSize first size.toNat

/-- `operator[]` (data_slice.ipp:254-259). -/
def Slice.at (s : Slice) (mem : Bytes) (i : Nat) : Option UInt8 := if i < s.size then deref mem (s.start + i) else some 0

/-- `front` (data_slice.ipp:215-219). -/
def Slice.front (s : Slice) (mem : Bytes) : Option UInt8 := if s.size = 0 then some 0 else deref mem s.start

/-- `back` (data_slice.ipp:221-225). -/
def Slice.back (s : Slice) (mem : Bytes) : Option UInt8 := if s.size = 0 then some 0 else deref mem (s.start + s.size - 1)

/-- `to_array<Size>` (data_slice.ipp:156-171, data_slab.ipp:151-166). -/
def Slice.toArray (s : Slice) (mem : Bytes) (size : Nat) : Option Bytes := (List.range size).mapM (s.at mem)

/-- `to_chunk`, `to_string` (data_slice.ipp:173-182): the bytes from begin to end. -/
def Slice.toChunk (s : Slice) (mem : Bytes) : Option Bytes := (List.range s.size).mapM fun i => deref mem (s.start + i)

/-- `resize` (data_slice.ipp:184-192, data_slab.ipp:138-146). -/
def Slice.resize (s : Slice) (size : Nat) : Bool × Slice := if s.size ≤ size then (false, s) else (true, ⟨s.start, size⟩)

/-- The loop of `operator==` (data_slice.ipp:269-277). -/
def equalLoop (mem : Bytes) (a b : Slice) : Nat → Nat → Option Bool
  | 0, _ => some true
  | n + 1, i =>
    match a.at mem i, b.at mem i with
    | some x, some y => if x ≠ y then some false else equalLoop mem a b n (i + 1)
    | _, _ => Option.none

/-- `operator==` (data_slice.ipp:261-278). -/
def Slice.equal (a b : Slice) (mem : Bytes) : Option Bool := if a.size ≠ b.size then some false else equalLoop mem a b a.size 0

/-! ## Arrays -/

/-- The loop of `build_array` (data_array.ipp:73-80): the part written so far, of `size`. -/
def buildLoop (size : Nat) : Bytes → List Bytes → Bytes
  | out, [] => out
  | out, slice :: slices => buildLoop size (out ++ slice.take (min (size - out.length) slice.length)) slices

/-- `build_array<Size>` (data_array.ipp:68-85). -/
def buildArray (size : Nat) (slices : List Bytes) : Bytes :=
  buildLoop size [] slices ++ List.replicate (size - (buildLoop size [] slices).length) 0

/-- `build_chunk` (data_chunk.cpp:37-50). -/
def buildChunk (slices : List Bytes) : Bytes := slices.foldl (fun out s => out ++ s) []

/-- `slice<Start, End>` (data_array.ipp:108-119). -/
def slice (first last : Nat) (bytes : Bytes) : Bytes := (bytes.drop first).take (last - first)

/-- `splice` (data_array.ipp:121-142, data_chunk.cpp:52-59). -/
def splice (left right : Bytes) : Bytes := left ++ right
/-- As above, data_chunk.cpp:52-59. -/
def splice3 (left middle right : Bytes) : Bytes := left ++ (middle ++ right)

/-- `split` (data_array.ipp:144-152) of an even size. -/
def split (bytes : Bytes) : Bytes × Bytes := (bytes.take (bytes.length / 2), (bytes.drop (bytes.length / 2)).take (bytes.length / 2))

/-- `xor_offset<Size, Offset1, Offset2>` (data_array.ipp:162-173); `xor_data` (154-160) has zero offsets. -/
def xorOffset (size offset1 offset2 : Nat) (a b : Bytes) : Bytes :=
  (List.range size).map fun i => a.getD (i + offset1) 0 ^^^ b.getD (i + offset2) 0

/-! ## Collections -/

section
variable {α : Type}

/-- The loop of `binary_search` (collection.ipp:53-66), on signed positions; `none` is an access outside the list. -/
def searchLoop (lt : α → α → Bool) (list : List α) (element : α) : Nat → Int → Int → Option Int
  | 0, _, _ => some (-1)
  | fuel + 1, left, right =>
    if left ≤ right then
      match list[((left + right) / 2).toNat]? with
      | Option.none => Option.none
      | some value =>
        if lt value element then searchLoop lt list element fuel ((left + right) / 2 + 1) right
        else if lt element value then searchLoop lt list element fuel left ((left + right) / 2 - 1)
        else some ((left + right) / 2)
    else some (-1)

/-- `binary_search` (collection.ipp:42-67). -/
def binarySearch (lt : α → α → Bool) (list : List α) (element : α) : Option Int :=
  if list.isEmpty then some (-1) else searchLoop lt list element (list.length + 1) 0 (list.length - 1 : Int)

/-- `insert_sorted` (collection.ipp:130-138): insertion at `std::upper_bound`, the first element that the new one is before. -/
def insertSorted (lt : α → α → Bool) (list : List α) (element : α) : List α :=
  list.takeWhile (fun y => !lt element y) ++ element :: list.dropWhile (fun y => !lt element y)

/-- `pop` (collection.ipp:140-151): the element taken, default if there is none, and the stack left. -/
def pop [Inhabited α] (stack : List α) : α × List α := if stack.isEmpty then (default, stack) else (stack.getLast?.getD default, stack.dropLast)

/-- `pop_front` (collection.ipp:153-164). -/
def popFront [Inhabited α] (stack : List α) : α × List α := if stack.isEmpty then (default, stack) else (stack.headD default, stack.tail)

/-- Insertion step of `std::sort`. Used for collection.ipp:279-296. -/
def sortStep (lt : α → α → Bool) (x : α) : List α → List α
  | [] => [x]
  | y :: l => if lt y x then y :: sortStep lt x l else x :: y :: l

/-- `sort` (collection.ipp:279-296). -/
def sort (lt : α → α → Bool) (l : List α) : List α := l.foldr (sortStep lt) []

/-- `std::unique`: the first of each group of equal neighbours. Used for collection.ipp:186-205. -/
def unique [DecidableEq α] : List α → List α
  | [] => []
  | [x] => [x]
  | x :: y :: l => if x = y then unique (y :: l) else x :: unique (y :: l)

/-- `distinct`, `distinct_copy` (collection.ipp:186-205). -/
def distinct [DecidableEq α] (lt : α → α → Bool) (l : List α) : List α := unique (sort lt l)

/-- `is_distinct` (collection.ipp:166-178): nothing removed by unique. -/
def isDistinct [DecidableEq α] (lt : α → α → Bool) (l : List α) : Bool := (unique (sort lt l)).length == (sort lt l).length

/-- `difference` (collection.ipp:207-230). -/
def difference [DecidableEq α] (left right : List α) : List α := left.filter fun x => !right.contains x

/-- `is_intersecting` (collection.ipp:232-244). -/
def isIntersecting [DecidableEq α] (left right : List α) : Bool := left.any fun x => right.contains x

/-- `part` (collection.ipp:246-264): the result, what remains in `from` and `to`. -/
def part [DecidableEq α] (source target : List α) (element : α) : Bool × List α × List α :=
  match source.findIdx? (· == element) with
  | Option.none => (false, source, target)
  | some i => (true, source.take i, target ++ source.drop i)

/-- `starts_with` (collection.ipp:298-305). -/
def startsWith [DecidableEq α] (list value : List α) : Bool := !decide (list.length < value.length) && list.take value.length == value

/-- `find_position` (collection.ipp:120-128); `find_pair_position` (105-118) is of the keys. -/
def findPosition [DecidableEq α] (list : List α) (element : α) : Int :=
  match list.findIdx? (· == element) with
  | Option.none => -1
  | some i => i

end

end Verif.Containers
