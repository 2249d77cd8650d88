import Verif.Spec.Unicode
/-!
# Facts about the Unicode tables, each computed by the kernel over the whole table
-/
namespace Verif.Unicode
open Spec

def allBelow (p : Nat → Bool) : Nat → Bool
  | 0 => true
  | n + 1 => p n && allBelow p n

theorem allBelow_spec {p : Nat → Bool} : ∀ {n : Nat}, allBelow p n = true → ∀ i < n, p i = true
  | n + 1, h, i, hi => by
    rw [allBelow, Bool.and_eq_true] at h
    by_cases he : i = n
    · rw [he]; exact h.1
    · exact allBelow_spec h.2 i (by omega)

/-- The recursion of `decompose_one` from a pool index ends within the fuel. -/
def indexEnds : Nat → Nat → Bool
  | 0, _ => false
  | fuel + 1, index =>
    index == 0 || allBelow (fun c =>
      let q := at' 32 decompositionPool (index + 1 + c)
      (fuel != 0 && ((sBase ≤ q && q < sBase + sCount) || maxPoint < q)) || indexEnds fuel (decompose q)) (components (at' 32 decompositionPool index))

theorem index1_check : allBelow (fun b => allBelow (fun j => decide (at' 16 decompositionIndex1 (128 * b + j) < 106)) 128) 68 = true := by
  decide +kernel

theorem index2_check : allBelow (fun b => allBelow (fun j => indexEnds 4 (at' 16 decompositionIndex2 (128 * b + j))) 128) 106 = true := by
  decide +kernel

/-- The first elements of pairs whose second element is a starter. -/
def starterFirsts : List Nat := [2503, 2887, 2962, 3014, 3015, 3263, 3270, 3274, 3398, 3399, 3545, 4133, 6917, 6919, 6921, 6923, 6925, 6929, 6970, 6972, 6974, 6975, 6978, 69937, 69938, 70471, 70841, 71096, 71097, 71989]

/-- Row `i` of the composition table. -/
def rowA (i : Nat) : Nat := at' 32 compositionPairs (3 * i)
def rowB (i : Nat) : Nat := at' 32 compositionPairs (3 * i + 1)
def rowC (i : Nat) : Nat := at' 32 compositionPairs (3 * i + 2)

/-- Every row is found, has a starter as composite, and decomposes to the decompositions of its pair. -/
theorem rows_check : allBelow (fun i => compositionLookup (rowA i) (rowB i) == rowC i && rowC i != 0 && ccc (rowC i) == 0 &&
    fullDecompose false (rowC i) == fullDecompose false (rowA i) ++ fullDecompose false (rowB i) &&
    fullDecompose true (rowC i) == fullDecompose true (rowA i) ++ fullDecompose true (rowB i) &&
    !(decide (rowA i < 128) && decide (rowB i < 128))) pairsCount = true := by
  decide +kernel

/-- A composite of a combining character begins no pair with a starter. -/
theorem chain_check : allBelow (fun i => (ccc (rowB i) != 0 || starterFirsts.contains (rowA i)) &&
    (ccc (rowB i) == 0 || (!starterFirsts.contains (rowC i) && (rowC i < lBase || lBase + lCount ≤ rowC i) &&
      (rowC i < sBase || sBase + sCount ≤ rowC i)))) pairsCount = true := by
  decide +kernel

/-- The conjoining jamo do not decompose. -/
theorem jamo_check : allBelow (fun j => mapping true (lBase + j) == none && mapping false (lBase + j) == none && ccc (lBase + j) == 0) 256 = true := by
  decide +kernel

/-- Hangul syllables are starters. -/
theorem syllable_check : allBelow (fun b => allBelow (fun j => ccc (sBase + (28 * b + j)) == 0) 28) 399 = true := by
  decide +kernel

/-- ASCII characters neither decompose nor combine, and their case mappings are those of ASCII. -/
theorem ascii_check : allBelow (fun p => fullDecompose true p == [p] && fullDecompose false p == [p] && ccc p == 0 &&
    foldLowerOne p == [asciiLower p] && foldUpperOne p == [asciiUpper p]) 128 = true := by
  decide +kernel

/-- Rows of a case table: found, one to three points, none of which is mapped again. -/
theorem fold_check : allBelow (fun i => foldLowerOne (at' 32 caseFoldPairs (i * 5)) ==
      [at' 32 caseFoldPairs (i * 5 + 2), at' 32 caseFoldPairs (i * 5 + 3), at' 32 caseFoldPairs (i * 5 + 4)].take (at' 32 caseFoldPairs (i * 5 + 1)) &&
    (foldLowerOne (at' 32 caseFoldPairs (i * 5))).all (fun q => foldLowerOne q == [q])) foldCount = true := by
  decide +kernel

theorem upper_check : allBelow (fun i => foldUpperOne (at' 32 upperPairs (i * 5)) ==
      [at' 32 upperPairs (i * 5 + 2), at' 32 upperPairs (i * 5 + 3), at' 32 upperPairs (i * 5 + 4)].take (at' 32 upperPairs (i * 5 + 1)) &&
    (foldUpperOne (at' 32 upperPairs (i * 5))).all (fun q => foldUpperOne q == [q])) upperCount = true := by
  decide +kernel

end Verif.Unicode
