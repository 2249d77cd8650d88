import Verif.Lemmas.Catalog
import Verif.Lemmas.Stream
/-!
# Word search finds exactly the words of the lists
-/
namespace Verif.Mnemonic
open Verif

/-! ### Order of strings -/

theorem strLt_irrefl : ∀ a : Bytes, strLt a a = false
  | [] => rfl
  | x :: xs => by
    simp only [strLt, strLt_irrefl xs, Bool.and_false, Bool.or_false, decide_eq_false_iff_not]
    exact UInt8.lt_irrefl x

theorem strLt_trans : ∀ {a b c : Bytes}, strLt a b = true → strLt b c = true → strLt a c = true
  | _, [], _, h, _ => by cases ‹Bytes› <;> simp [strLt] at h
  | _, _ :: _, [], _, h => by simp [strLt] at h
  | [], _ :: _, _ :: _, _, _ => rfl
  | x :: xs, y :: ys, z :: zs, h1, h2 => by
    simp only [strLt, Bool.or_eq_true, decide_eq_true_eq, Bool.and_eq_true, beq_iff_eq] at *
    rcases h1 with h1 | ⟨rfl, h1⟩ <;> rcases h2 with h2 | ⟨rfl, h2⟩
    · exact Or.inl (UInt8.lt_trans h1 h2)
    · exact Or.inl h1
    · exact Or.inl h2
    · exact Or.inr ⟨rfl, strLt_trans h1 h2⟩

theorem strLt_total : ∀ {a b : Bytes}, strLt a b = false → strLt b a = false → a = b
  | [], [], _, _ => rfl
  | [], _ :: _, h, _ => by simp [strLt] at h
  | _ :: _, [], _, h => by simp [strLt] at h
  | x :: xs, y :: ys, h1, h2 => by
    simp only [strLt, Bool.or_eq_false_iff, decide_eq_false_iff_not, Bool.and_eq_false_iff, beq_eq_false_iff_ne] at *
    have hxy : x = y := UInt8.le_antisymm (UInt8.not_lt.1 h2.1) (UInt8.not_lt.1 h1.1)
    subst hxy
    rw [strLt_total (h1.2.resolve_left (fun h => h rfl)) (h2.2.resolve_left (fun h => h rfl))]

/-- Strictly increasing. -/
def Increasing (l : List Bytes) : Prop := ∀ (i j : Nat) (a b : Bytes), l[i]? = some a → l[j]? = some b → i < j → strLt a b = true

theorem ordered_head : ∀ (l : List Nat) (a : Nat), Catalog.ordered (a :: l) = true →
    ∀ b ∈ l, strLt (wordBytes a) (wordBytes b) = true
  | [], _, _, _, h => by simp at h
  | x :: l, a, ho, b, hb => by
    simp only [Catalog.ordered, Bool.and_eq_true] at ho
    rcases List.mem_cons.1 hb with rfl | hb
    · exact ho.1
    · exact strLt_trans ho.1 (ordered_head l x ho.2 b hb)

theorem ordered_tail (l : List Nat) (a : Nat) (h : Catalog.ordered (a :: l) = true) : Catalog.ordered l = true := by
  cases l with
  | nil => rfl
  | cons b l =>
    simp only [Catalog.ordered, Bool.and_eq_true] at h
    exact h.2

theorem ordered_increasing : ∀ l : List Nat, Catalog.ordered l = true → Increasing (l.map wordBytes)
  | [], _ => by intro i j a b h; simp at h
  | x :: l, ho => by
    intro i j a b hi hj hij
    cases j with
    | zero => omega
    | succ j =>
      cases i with
      | zero =>
        simp at hi hj
        obtain ⟨w, hw, rfl⟩ := hj
        rw [← hi]
        exact ordered_head l x ho w (List.mem_of_getElem? hw)
      | succ i => exact ordered_increasing l (ordered_tail l x ho) i j a b (by simpa using hi) (by simpa using hj) (by omega)

/-! ### Binary search -/

/-- The search returns only positions of the element. -/
theorem searchLoop_sound (l : List Bytes) (e : Bytes) : ∀ (fuel : Nat) (left right : Int), 0 ≤ left → right < l.length →
    ∀ r, searchLoop l e fuel left right = r → r = -1 ∨ (0 ≤ r ∧ l[r.toNat]? = some e)
  | 0, _, _, _, _, r, h => Or.inl h.symm
  | fuel + 1, left, right, h0, h1, r, h => by
    rw [searchLoop] at h
    by_cases hlr : left ≤ right
    · simp only [if_pos hlr] at h
      have hm1 : left ≤ (left + right) / 2 := by omega
      have hm2 : (left + right) / 2 ≤ right := by omega
      cases h3 : strLt (l.getD ((left + right) / 2).toNat []) e with
      | true =>
        rw [h3, if_pos rfl] at h
        exact searchLoop_sound l e fuel _ right (by omega) h1 r h
      | false =>
        rw [h3, if_neg (by decide)] at h
        cases h4 : strLt e (l.getD ((left + right) / 2).toNat []) with
        | true =>
          rw [h4, if_pos rfl] at h
          exact searchLoop_sound l e fuel left _ h0 (by omega) r h
        | false =>
          rw [h4, if_neg (by decide)] at h
          right
          subst h
          refine ⟨by omega, ?_⟩
          have hlt : ((left + right) / 2).toNat < l.length := by omega
          rw [← strLt_total h3 h4, List.getElem?_eq_getElem hlt]
          simp [List.getD_eq_getElem?_getD, hlt]
    · rw [if_neg hlr] at h
      exact Or.inl h.symm

/-- The search finds an element within its bounds. -/
theorem searchLoop_complete (l : List Bytes) (hl : Increasing l) (e : Bytes) (k : Nat) (hk : l[k]? = some e) :
    ∀ (fuel : Nat) (left right : Int), 0 ≤ left → right < l.length → left ≤ k → (k : Int) ≤ right → right - left + 1 < fuel →
    searchLoop l e fuel left right = k
  | 0, left, right, _, _, _, _, h => by omega
  | fuel + 1, left, right, h0, h1, h2, h3, hf => by
    have hlr : left ≤ right := by omega
    rw [searchLoop, if_pos hlr]
    dsimp only
    have hm1 : left ≤ (left + right) / 2 := by omega
    have hm2 : (left + right) / 2 ≤ right := by omega
    have hlt : ((left + right) / 2).toNat < l.length := by omega
    have hv : l[((left + right) / 2).toNat]? = some (l.getD ((left + right) / 2).toNat []) := by
      rw [List.getD_eq_getElem?_getD, List.getElem?_eq_getElem hlt]
      rfl
    by_cases c1 : k = ((left + right) / 2).toNat
    · rw [← c1, hk] at hv
      injection hv with hv
      rw [← c1, ← hv, strLt_irrefl]
      simp
      omega
    · by_cases c2 : k < ((left + right) / 2).toNat
      · have h4 := hl _ _ _ _ hk hv c2
        have h5 : strLt (l.getD ((left + right) / 2).toNat []) e = false := by
          cases h : strLt (l.getD ((left + right) / 2).toNat []) e with
          | false => rfl
          | true => have := strLt_trans h4 h; rw [strLt_irrefl] at this; cases this
        rw [h5, if_neg (by decide), h4, if_pos rfl]
        exact searchLoop_complete l hl e k hk fuel left _ h0 (by omega) h2 (by omega) (by omega)
      · have h4 := hl _ _ _ _ hv hk (by omega)
        rw [h4, if_pos rfl]
        exact searchLoop_complete l hl e k hk fuel _ right (by omega) h1 (by omega) h3 (by omega)

/-! ### Dictionaries -/

/-- A dictionary whose search is exact. -/
structure Good (n : Nat) (d : Dictionary) : Prop where
  size : d.words.length = n
  find : ∀ (i : Nat) w, d.words[i]? = some w → d.index w = i
  member : ∀ w, 0 ≤ d.index w → d.words[(d.index w).toNat]? = some w

theorem good_sorted (l : Language) (ws : List Bytes) (h : Increasing ws) : Good ws.length ⟨l, true, ws⟩ := by
  have hidx : ∀ w, (Dictionary.mk l true ws).index w = binarySearch ws w := fun w => by simp [Dictionary.index]
  refine ⟨rfl, ?_, ?_⟩
  · intro i w hw
    rw [hidx]
    have hlt : i < ws.length := (List.getElem?_eq_some_iff.1 hw).1
    unfold binarySearch
    rw [if_neg (by cases ws <;> simp_all)]
    exact searchLoop_complete ws h w i hw _ 0 _ (by omega) (by omega) (by omega) (by omega) (by omega)
  · intro w hw
    rw [hidx] at hw ⊢
    unfold binarySearch at hw ⊢
    by_cases he : ws.isEmpty = true
    · rw [if_pos he] at hw
      omega
    · rw [if_neg he] at hw ⊢
      have hpos : 0 < ws.length := by cases ws <;> simp_all
      rcases searchLoop_sound ws w (ws.length + 1) 0 (ws.length - 1 : Nat) (by omega) (by omega) _ rfl with h | h
      · rw [h] at hw; omega
      · exact h.2

theorem good_unsorted (l : Language) (ws : List Bytes) (h : ∀ (i j : Nat) (a : Bytes), ws[i]? = some a → ws[j]? = some a → i = j) :
    Good ws.length ⟨l, false, ws⟩ := by
  refine ⟨rfl, ?_, ?_⟩
  · intro i w hw
    simp only [Dictionary.index, if_neg (show ¬ (false = true) by decide)]
    cases hf : ws.findIdx? (· == w) with
    | none =>
      rw [List.findIdx?_eq_none_iff] at hf
      have := hf w (List.mem_of_getElem? hw)
      simp at this
    | some k =>
      rw [List.findIdx?_eq_some_iff_getElem] at hf
      obtain ⟨hk, he, _⟩ := hf
      have := h k i w (by rw [List.getElem?_eq_getElem hk]; simpa using he) hw
      simp [this]
  · intro w hw
    simp only [Dictionary.index, if_neg (show ¬ (false = true) by decide)] at hw ⊢
    cases hf : ws.findIdx? (· == w) with
    | none =>
      rw [hf] at hw
      simp at hw
    | some k =>
      rw [List.findIdx?_eq_some_iff_getElem] at hf
      obtain ⟨hk, he, _⟩ := hf
      simp only [Int.toNat_natCast]
      rw [List.getElem?_eq_getElem hk]
      simpa using he

/-! ### Words as numbers -/

theorem wordBytes_go : ∀ (f n : Nat) (acc : Bytes), n < 256 ^ f →
    beNat (wordBytes.go f n acc) = n * 256 ^ acc.length + beNat acc
  | 0, n, acc, h => by
    have : n = 0 := by simpa using h
    simp [wordBytes.go, this]
  | f + 1, n, acc, h => by
    rw [wordBytes.go]
    by_cases h0 : n = 0
    · simp [h0]
    · rw [if_neg h0, wordBytes_go f (n / 256) _ (by rw [Nat.div_lt_iff_lt_mul (by decide)]; rwa [Nat.pow_succ] at h)]
      have hb : beNat (UInt8.ofNat (n % 256) :: acc) = n % 256 * 256 ^ acc.length + beNat acc := by
        rw [beNat, List.reverse_cons, leNat_append]
        simp [leNat, beNat, Nat.add_comm, Nat.mul_comm]
      rw [hb, List.length_cons, Nat.pow_succ]
      have hd := Nat.div_add_mod n 256
      conv => rhs; rw [← hd]
      rw [Nat.add_mul, Nat.mul_comm 256, Nat.mul_assoc, Nat.mul_comm 256]
      omega

theorem wordBytes_inj {a b : Nat} (ha : a < 256 ^ 40) (hb : b < 256 ^ 40) (h : wordBytes a = wordBytes b) : a = b := by
  have h1 := wordBytes_go 40 a [] ha
  have h2 := wordBytes_go 40 b [] hb
  unfold wordBytes at h
  rw [h] at h1
  rw [h1] at h2
  simpa [beNat, leNat] using h2

theorem sized_spec {n : Nat} {l : List Nat} (h : Catalog.sized n l = true) : l.length = n ∧ ∀ w ∈ l, w < 256 ^ 40 ∧ 0 < w := by
  simp only [Catalog.sized, Bool.and_eq_true, List.all_eq_true] at h
  refine ⟨Nat.eq_of_beq_eq_true h.1, fun w hw => ?_⟩
  have := h.2 w hw
  refine ⟨?_, ?_⟩
  · exact Nat.le_of_ble_eq_true this.1
  · exact Nat.le_of_ble_eq_true this.2

/-- Equal words of two certified lists have equal or shared positions. -/
theorem found_shared {t : Catalog.Tree} {f : Nat → Nat → Bool} (hp : t.pairs f = true) {n m c c' : Nat} {l l' : List Nat}
    (hl : Catalog.found t c l = true) (hl' : Catalog.found t c' l' = true) (hs : Catalog.sized n l = true) (hs' : Catalog.sized m l' = true)
    {i j : Nat} {w : Bytes} (hi : (l.map wordBytes)[i]? = some w) (hj : (l'.map wordBytes)[j]? = some w) :
    c + i = c' + j ∨ f (c + i) (c' + j) = true ∨ f (c' + j) (c + i) = true := by
  rw [List.getElem?_map] at hi hj
  obtain ⟨a, ha, rfl⟩ := Option.map_eq_some_iff.1 hi
  obtain ⟨b, hb, e⟩ := Option.map_eq_some_iff.1 hj
  have e' := wordBytes_inj ((sized_spec hs').2 b (List.mem_of_getElem? hb)).1 ((sized_spec hs).2 a (List.mem_of_getElem? ha)).1 e
  subst e'
  exact Catalog.holds_pair f t b _ _ hp (Catalog.found_get t l c hl i b ha) (Catalog.found_get t l' c' hl' j b hb)

end Verif.Mnemonic
