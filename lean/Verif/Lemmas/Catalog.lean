import Verif.Model.Mnemonic
import Verif.Model.Catalog.MnemonicTree
import Verif.Model.Catalog.V1Tree
/-!
# Facts about the word lists, and correctness of word search
-/
namespace Verif.Catalog

/-- Is every word of a list found with its position? -/
def found (t : Tree) : Nat → List Nat → Bool
  | _, [] => true
  | c, w :: ws => bif t.holds w c then found t (c + 1) ws else false

theorem found_get (t : Tree) : ∀ (ws : List Nat) (c : Nat), found t c ws = true → ∀ i w, ws[i]? = some w → t.holds w (c + i) = true
  | [], _, _, i, w, h => by simp at h
  | x :: ws, c, hf, i, w, h => by
    rw [found] at hf
    cases hx : t.holds x c with
    | false => rw [hx] at hf; cases hf
    | true =>
      rw [hx, cond_true] at hf
      cases i with
      | zero =>
        simp at h
        subst h
        exact hx
      | succ i =>
        have := found_get t ws (c + 1) hf i w (by simpa using h)
        rwa [show c + 1 + i = c + (i + 1) by omega] at this

theorem holds_pair (f : Nat → Nat → Bool) : ∀ (t : Tree) (w c c' : Nat), t.pairs f = true → t.holds w c = true → t.holds w c' = true →
    c = c' ∨ f c c' = true ∨ f c' c = true
  | .e, _, _, _, _, h, _ => by simp [Tree.holds] at h
  | .o l k v r, w, c, c', hp, h, h' => by
    simp only [Tree.pairs, Bool.and_eq_true] at hp
    simp only [Tree.holds] at h h'
    cases h1 : Nat.beq w k with
    | true =>
      rw [h1, cond_true] at h h'
      exact Or.inl ((Nat.eq_of_beq_eq_true h).trans (Nat.eq_of_beq_eq_true h').symm)
    | false =>
      rw [h1, cond_false] at h h'
      cases h2 : Nat.blt w k with
      | true => rw [h2, cond_true] at h h'; exact holds_pair f l w c c' hp.1 h h'
      | false => rw [h2, cond_false] at h h'; exact holds_pair f r w c c' hp.2 h h'
  | .t l k v v' r, w, c, c', hp, h, h' => by
    simp only [Tree.pairs, Bool.and_eq_true] at hp
    simp only [Tree.holds] at h h'
    cases h1 : Nat.beq w k with
    | true =>
      rw [h1, cond_true, Bool.or_eq_true] at h h'
      rcases h with h | h <;> rcases h' with h' | h' <;> have e := Nat.eq_of_beq_eq_true h <;> have e' := Nat.eq_of_beq_eq_true h' <;>
        subst e <;> subst e' <;> simp [hp.1]
    | false =>
      rw [h1, cond_false] at h h'
      cases h2 : Nat.blt w k with
      | true => rw [h2, cond_true] at h h'; exact holds_pair f l w c c' hp.2.1 h h'
      | false => rw [h2, cond_false] at h h'; exact holds_pair f r w c c' hp.2.2 h h'

/-- Positions with a common word: English and French, or the two Chinese lists at the same index. -/
def shared (c c' : Nat) : Bool :=
  (c / 2048 == 0 && c' / 2048 == 3) || (c / 2048 == 8 && c' / 2048 == 9 && c % 2048 == c' % 2048)

theorem mnemonic_pairs : mnemonicTree.pairs shared = true := by decide +kernel
theorem en_found : found mnemonicTree 0 en = true := by decide +kernel
theorem es_found : found mnemonicTree 2048 es = true := by decide +kernel
theorem it_found : found mnemonicTree 4096 it = true := by decide +kernel
theorem fr_found : found mnemonicTree 6144 fr = true := by decide +kernel
theorem cs_found : found mnemonicTree 8192 cs = true := by decide +kernel
theorem pt_found : found mnemonicTree 10240 pt = true := by decide +kernel
theorem ja_found : found mnemonicTree 12288 ja = true := by decide +kernel
theorem ko_found : found mnemonicTree 14336 ko = true := by decide +kernel
theorem zhHans_found : found mnemonicTree 16384 zhHans = true := by decide +kernel
theorem zhHant_found : found mnemonicTree 18432 zhHant = true := by decide +kernel
theorem v1_pairs : v1Tree.pairs (fun c c' => c / 2048 == 0 && c' / 2048 == 1) = true := by decide +kernel
theorem v1En_found : found v1Tree 0 v1En = true := by decide +kernel
theorem v1Pt_found : found v1Tree 2048 v1Pt = true := by decide +kernel

/-- A list of `n` numbers of at most forty bytes, none zero. -/
def sized (n : Nat) (l : List Nat) : Bool := Nat.beq l.length n && l.all fun w => Nat.blt w (256 ^ 40) && Nat.blt 0 w

theorem en_sized : sized 2048 en = true := by decide +kernel
theorem es_sized : sized 2048 es = true := by decide +kernel
theorem it_sized : sized 2048 it = true := by decide +kernel
theorem fr_sized : sized 2048 fr = true := by decide +kernel
theorem cs_sized : sized 2048 cs = true := by decide +kernel
theorem pt_sized : sized 2048 pt = true := by decide +kernel
theorem ja_sized : sized 2048 ja = true := by decide +kernel
theorem ko_sized : sized 2048 ko = true := by decide +kernel
theorem zhHans_sized : sized 2048 zhHans = true := by decide +kernel
theorem zhHant_sized : sized 2048 zhHant = true := by decide +kernel
theorem v1En_sized : sized 1626 v1En = true := by decide +kernel
theorem v1Pt_sized : sized 1626 v1Pt = true := by decide +kernel

open Verif.Mnemonic in
/-- Adjacent words in increasing order. -/
def ordered : List Nat → Bool
  | [] => true
  | [_] => true
  | a :: b :: r => strLt (wordBytes a) (wordBytes b) && ordered (b :: r)

theorem en_ordered : ordered en = true := by decide +kernel
theorem it_ordered : ordered it = true := by decide +kernel
theorem pt_ordered : ordered pt = true := by decide +kernel
theorem ko_ordered : ordered ko = true := by decide +kernel

end Verif.Catalog
