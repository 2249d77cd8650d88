import Verif.Spec.Containers
/-!
# C95 byte slices, byte arrays and collections
-/
namespace Verif.Containers
open Verif Spec

/-! ## Slices -/

theorem deref_content {mem : Bytes} {s : Slice} (h : Valid mem s) {i : Nat} (hi : i < s.size) :
    deref mem (s.start + i) = some ((content mem s).getD i 0) := by
  unfold deref content Valid at *
  rw [List.getD_eq_getElem?_getD, List.getElem?_take, if_pos hi, List.getElem?_drop, List.getElem?_eq_getElem (by omega)]
  rfl

theorem content_length {mem : Bytes} {s : Slice} (h : Valid mem s) : (content mem s).length = s.size := by
  unfold content Valid at *
  rw [List.length_take, List.length_drop]
  omega

theorem mapM_some {f : Nat → Option UInt8} {g : Nat → UInt8} : ∀ {l : List Nat}, (∀ i ∈ l, f i = some (g i)) → l.mapM f = some (l.map g)
  | [], _ => rfl
  | x :: l, h => by
    rw [List.mapM_cons, h x List.mem_cons_self, mapM_some fun i hi => h i (List.mem_cons_of_mem _ hi)]
    rfl

theorem range_getD (l : Bytes) (n : Nat) : (List.range n).map (fun i => l.getD i 0) = l.take n ++ List.replicate (n - l.length) 0 := by
  apply List.ext_getElem
  · simp only [List.length_map, List.length_range, List.length_append, List.length_take, List.length_replicate]; omega
  · intro i h1 h2
    rw [List.getElem_map, List.getElem_range, List.getD_eq_getElem?_getD]
    by_cases hi : i < l.length
    · rw [List.getElem?_eq_getElem hi, List.getElem_append_left (by rw [List.length_take]; simp only [List.length_map, List.length_range] at h1; omega), List.getElem_take]
      rfl
    · rw [List.getElem?_eq_none (by omega), List.getElem_append_right (by rw [List.length_take]; omega), List.getElem_replicate]
      rfl

/-- Indexing, the ends, and copies of a slice never read outside it, and give its bytes; past the end they give zero. -/
theorem C95_slice {mem : Bytes} {s : Slice} (h : Valid mem s) :
    (∀ i, s.at mem i = some ((content mem s).getD i 0)) ∧
    s.front mem = some ((content mem s).headD 0) ∧
    s.back mem = some ((content mem s).getLastD 0) ∧
    s.toChunk mem = some (content mem s) ∧
    ∀ n, s.toArray mem n = some ((content mem s).take n ++ List.replicate (n - (content mem s).length) 0) := by
  have hlen := content_length h
  have hat : ∀ i, s.at mem i = some ((content mem s).getD i 0) := by
    intro i
    unfold Slice.at
    split
    · rename_i hi; exact deref_content h hi
    · rw [List.getD_eq_getElem?_getD, List.getElem?_eq_none (by omega)]; rfl
  refine ⟨hat, ?_, ?_, ?_, fun n => ?_⟩
  · unfold Slice.front
    split
    · rename_i h0
      have : content mem s = [] := List.length_eq_zero_iff.1 (by omega)
      rw [this]; rfl
    · rename_i h0
      have := deref_content h (i := 0) (by omega)
      rw [Nat.add_zero] at this
      rw [this]
      cases content mem s <;> rfl
  · unfold Slice.back
    split
    · rename_i h0
      have : content mem s = [] := List.length_eq_zero_iff.1 (by omega)
      rw [this]; rfl
    · rename_i h0
      rw [show s.start + s.size - 1 = s.start + (s.size - 1) by omega, deref_content h (by omega), List.getLastD_eq_getLast?, List.getLast?_eq_getElem?, hlen,
        List.getD_eq_getElem?_getD]
  · unfold Slice.toChunk
    rw [mapM_some (g := fun i => (content mem s).getD i 0) fun i hi => deref_content h (List.mem_range.1 hi), range_getD, ← hlen]
    simp
  · unfold Slice.toArray
    rw [mapM_some (g := fun i => (content mem s).getD i 0) fun i _ => hat i, range_getD]

/-- Slices made of memory are inside it: of a size, of a literal (without its terminator), and of iterators in any order. -/
theorem C95_make (mem : Bytes) (first last size : Nat) :
    (first + size ≤ mem.length → Valid mem (fromSize first size) ∧ content mem (fromSize first size) = (mem.drop first).take size) ∧
    (first + size ≤ mem.length → Valid mem (fromLiteral first size) ∧ content mem (fromLiteral first size) = (mem.drop first).take (size - 1)) ∧
    (last ≤ mem.length → Valid mem (fromIterators first last) ∧ content mem (fromIterators first last) = (mem.take last).drop first) := by
  have hs : ∀ n, first + n ≤ mem.length → Valid mem (fromSize first n) ∧ content mem (fromSize first n) = (mem.drop first).take n := by
    intro n h
    unfold fromSize
    split
    · rename_i h0
      subst h0
      exact ⟨Nat.zero_le _, by simp [content, Slice.none]⟩
    · exact ⟨h, rfl⟩
  refine ⟨hs size, fun h => ?_, fun h => ?_⟩
  · unfold fromLiteral
    split
    · rename_i h0
      subst h0
      exact ⟨Nat.zero_le _, by simp [content, Slice.none]⟩
    · exact hs (size - 1) (by omega)
  · unfold fromIterators
    dsimp only
    split
    · refine ⟨Nat.zero_le _, ?_⟩
      rw [List.drop_eq_nil_of_le (by rw [List.length_take]; omega)]
      simp [content, Slice.none]
    · have := hs ((last : Int) - (first : Int)).toNat (by omega)
      refine ⟨this.1, ?_⟩
      rw [this.2, List.drop_take, show ((last : Int) - (first : Int)).toNat = last - first by omega]

/-- Resizing only shortens a slice, keeping its first bytes. -/
theorem C95_resize {mem : Bytes} {s : Slice} (h : Valid mem s) (n : Nat) :
    ((s.resize n).1 = true ↔ n < s.size) ∧ Valid mem (s.resize n).2 ∧ content mem (s.resize n).2 = (content mem s).take n := by
  have hlen := content_length h
  unfold Slice.resize
  split
  · rename_i hn
    refine ⟨by simp; omega, h, ?_⟩
    rw [List.take_of_length_le (by omega)]
  · rename_i hn
    refine ⟨by simp; omega, by unfold Valid at *; dsimp only; omega, ?_⟩
    unfold content
    rw [List.take_take]
    dsimp only
    rw [Nat.min_eq_left (by omega)]

theorem equalLoop_eq {mem : Bytes} {a b : Slice} (ha : Valid mem a) (hb : Valid mem b) : ∀ (n i : Nat),
    ∃ r, equalLoop mem a b n i = some r ∧ (r = true ↔ ∀ j, i ≤ j → j < i + n → (content mem a).getD j 0 = (content mem b).getD j 0)
  | 0, i => ⟨true, rfl, fun _ j h1 h2 => by omega, fun _ => rfl⟩
  | n + 1, i => by
    rw [equalLoop, (C95_slice ha).1 i, (C95_slice hb).1 i]
    dsimp only
    by_cases h : (content mem a).getD i 0 = (content mem b).getD i 0
    · rw [if_neg (fun k => k h)]
      obtain ⟨r, hr, hk⟩ := equalLoop_eq ha hb n (i + 1)
      refine ⟨r, hr, hk.trans ⟨?_, ?_⟩⟩
      · intro k j h1 h2
        by_cases hj : j = i
        · rw [hj]; exact h
        · exact k j (by omega) (by omega)
      · intro k j h1 h2
        exact k j (by omega) (by omega)
    · rw [if_pos h]
      exact ⟨false, rfl, ⟨fun h' => by simp at h', fun k => absurd (k i (Nat.le_refl _) (by omega)) h⟩⟩

/-- Slices compare equal exactly if they have the same bytes, wherever they are. -/
theorem C95_equal {mem : Bytes} {a b : Slice} (ha : Valid mem a) (hb : Valid mem b) :
    ∃ r, a.equal b mem = some r ∧ (r = true ↔ content mem a = content mem b) := by
  have la := content_length ha
  have lb := content_length hb
  unfold Slice.equal
  split
  · rename_i h
    refine ⟨false, rfl, fun h' => (by cases h'), fun k => ?_⟩
    rw [k] at la
    omega
  · rename_i h
    obtain ⟨r, hr, hk⟩ := equalLoop_eq ha hb a.size 0
    refine ⟨r, hr, hk.trans ⟨?_, ?_⟩⟩
    · intro k
      apply List.ext_getElem (by omega)
      intro i h1 h2
      have := k i (Nat.zero_le _) (by omega)
      rw [List.getD_eq_getElem?_getD, List.getD_eq_getElem?_getD, List.getElem?_eq_getElem h1, List.getElem?_eq_getElem h2] at this
      exact this
    · intro k j _ _
      rw [k]

/-! ## Arrays -/

theorem buildLoop_eq (size : Nat) : ∀ (slices : List Bytes) (out : Bytes), out.length ≤ size →
    buildLoop size out slices = (out ++ slices.flatten).take size
  | [], out, h => by rw [buildLoop, List.flatten_nil, List.append_nil, List.take_of_length_le h]
  | s :: slices, out, h => by
    rw [buildLoop, buildLoop_eq size slices _ (by rw [List.length_append, List.length_take]; omega), List.flatten_cons]
    by_cases hs : s.length ≤ size - out.length
    · rw [Nat.min_eq_right hs, List.take_length, List.append_assoc]
    · rw [Nat.min_eq_left (by omega), ← List.append_assoc out s, List.take_append_of_le_length (l₁ := out ++ s) (by rw [List.length_append]; omega),
        List.take_append_of_le_length (l₁ := out ++ s.take (size - out.length)) (by rw [List.length_append, List.length_take]; omega)]
      rw [List.take_append, List.take_append, List.take_take]
      congr 2
      omega

/-- An array built of slices is their concatenation, cut or padded with zeros to the size; a chunk is their concatenation. -/
theorem C95_build (size : Nat) (slices : List Bytes) :
    buildArray size slices = slices.flatten.take size ++ List.replicate (size - slices.flatten.length) 0 ∧
    (buildArray size slices).length = size ∧ buildChunk slices = slices.flatten := by
  have e : buildLoop size [] slices = slices.flatten.take size := by
    rw [buildLoop_eq size slices [] (Nat.zero_le _), List.nil_append]
  have h1 : buildArray size slices = slices.flatten.take size ++ List.replicate (size - slices.flatten.length) 0 := by
    unfold buildArray
    rw [e, List.length_take]
    congr 2
    omega
  refine ⟨h1, ?_, ?_⟩
  · rw [h1, List.length_append, List.length_take, List.length_replicate]; omega
  · unfold buildChunk
    have : ∀ (l : List Bytes) (out : Bytes), l.foldl (fun out s => out ++ s) out = out ++ l.flatten := by
      intro l
      induction l with
      | nil => intro out; simp
      | cons s l ih => intro out; rw [List.foldl_cons, ih, List.flatten_cons, List.append_assoc]
    rw [this, List.nil_append]

/-- Splicing and slicing are inverse, as are splitting and splicing. -/
theorem C95_splice (a b c : Bytes) :
    slice 0 a.length (splice a b) = a ∧ slice a.length (a.length + b.length) (splice a b) = b ∧
    splice3 a b c = splice (splice a b) c ∧
    (a.length = b.length → split (splice a b) = (a, b)) ∧
    (a.length % 2 = 0 → splice (split a).1 (split a).2 = a) ∧
    ∀ i j, i ≤ j → j ≤ a.length → (slice i j a).length = j - i ∧ splice (slice 0 i a) (splice (slice i j a) (slice j a.length a)) = a := by
  refine ⟨?_, ?_, ?_, fun h => ?_, fun h => ?_, fun i j h1 h2 => ⟨?_, ?_⟩⟩
  · simp [slice, splice]
  · simp [slice, splice]
  · simp [splice, splice3]
  · unfold split splice
    rw [List.length_append, show (a.length + b.length) / 2 = a.length by omega]
    simp [h]
  · unfold split splice
    dsimp only
    rw [List.take_of_length_le (l := a.drop (a.length / 2)) (by rw [List.length_drop]; omega), List.take_append_drop]
  · simp only [slice, List.length_take, List.length_drop]; omega
  · unfold slice splice
    rw [List.drop_zero, Nat.sub_zero, List.take_of_length_le (l := a.drop j) (by rw [List.length_drop]; omega)]
    have : a.drop j = (a.drop i).drop (j - i) := by rw [List.drop_drop]; congr 1; omega
    rw [this, List.take_append_drop, List.take_append_drop]

/-- Exclusive or of parts of two arrays: byte by byte, and with either of them again gives the other. -/
theorem C95_xor (n i j : Nat) (a b : Bytes) (ha : n + i ≤ a.length) (hb : n + j ≤ b.length) :
    (xorOffset n i j a b).length = n ∧
    (∀ k < n, (xorOffset n i j a b)[k]? = (a[k + i]?).bind fun x => (b[k + j]?).map fun y => x ^^^ y) ∧
    xorOffset n 0 j (xorOffset n i j a b) b = slice i (i + n) a ∧
    xorOffset n 0 i (xorOffset n i j a b) a = slice j (j + n) b := by
  have hl : (xorOffset n i j a b).length = n := by simp [xorOffset]
  have hg : ∀ k (hk : k < n), (xorOffset n i j a b)[k]? = some (a[k + i]'(by omega) ^^^ b[k + j]'(by omega)) := by
    intro k hk
    unfold xorOffset
    rw [List.getElem?_map, List.getElem?_range hk]
    simp only [Option.map_some, List.getD_eq_getElem?_getD]
    rw [List.getElem?_eq_getElem (show k + i < a.length by omega), List.getElem?_eq_getElem (show k + j < b.length by omega)]
    rfl
  refine ⟨hl, fun k hk => ?_, ?_, ?_⟩
  · rw [hg k hk, List.getElem?_eq_getElem (show k + i < a.length by omega), List.getElem?_eq_getElem (show k + j < b.length by omega)]
    rfl
  · apply List.ext_getElem?
    intro k
    by_cases hk : k < n
    · unfold slice
      rw [List.getElem?_take, if_pos (by omega), List.getElem?_drop, List.getElem?_eq_getElem (show i + k < a.length by omega), xorOffset, List.getElem?_map, List.getElem?_range hk]
      simp only [Option.map_some, List.getD_eq_getElem?_getD, Nat.add_zero]
      rw [hg k hk, List.getElem?_eq_getElem (show k + j < b.length by omega)]
      simp only [Option.getD_some, Option.some.injEq]
      rw [UInt8.xor_assoc, UInt8.xor_self, UInt8.xor_zero]
      congr 1; omega
    · rw [List.getElem?_eq_none (by simp [xorOffset]; omega), List.getElem?_eq_none (by simp [slice]; omega)]
  · apply List.ext_getElem?
    intro k
    by_cases hk : k < n
    · unfold slice
      rw [List.getElem?_take, if_pos (by omega), List.getElem?_drop, List.getElem?_eq_getElem (show j + k < b.length by omega), xorOffset, List.getElem?_map, List.getElem?_range hk]
      simp only [Option.map_some, List.getD_eq_getElem?_getD, Nat.add_zero]
      rw [hg k hk, List.getElem?_eq_getElem (show k + i < a.length by omega)]
      simp only [Option.getD_some, Option.some.injEq]
      rw [UInt8.xor_comm, ← UInt8.xor_assoc, UInt8.xor_self, UInt8.zero_xor]
      congr 1; omega
    · rw [List.getElem?_eq_none (by simp [xorOffset]; omega), List.getElem?_eq_none (by simp [slice]; omega)]

/-! ## Collections -/

variable {α : Type} {lt : α → α → Bool}

theorem sorted_get {l : List α} (h : Sorted lt l) {i j : Nat} {a b : α} (hi : l[i]? = some a) (hj : l[j]? = some b) (hij : i < j) : lt b a = false := by
  rw [Sorted, List.pairwise_iff_getElem] at h
  obtain ⟨h1, rfl⟩ := List.getElem?_eq_some_iff.1 hi
  obtain ⟨h2, rfl⟩ := List.getElem?_eq_some_iff.1 hj
  exact h i j h1 h2 hij

theorem searchLoop_spec (hw : Weak lt) {l : List α} (hs : Sorted lt l) (e : α) : ∀ (fuel : Nat) (left right : Int),
    0 ≤ left → right < l.length → right - left + 1 < fuel →
    ∃ r, searchLoop lt l e fuel left right = some r ∧
      ((r = -1 ∧ ∀ (j : Nat) (v : α), left ≤ j → j ≤ right → l[j]? = some v → lt v e = true ∨ lt e v = true) ∨
       (left ≤ r ∧ r ≤ right ∧ ∃ v, l[r.toNat]? = some v ∧ lt v e = false ∧ lt e v = false))
  | 0, left, right, _, _, h => ⟨-1, rfl, .inl ⟨rfl, fun j v h1 h2 => by omega⟩⟩
  | fuel + 1, left, right, h0, h1, hf => by
    rw [searchLoop]
    by_cases hlr : left ≤ right
    · rw [if_pos hlr]
      generalize hm : (left + right) / 2 = m
      have hm1 : left ≤ m := by omega
      have hm2 : m ≤ right := by omega
      have hlt : m.toNat < l.length := by omega
      have hv : l[m.toNat]? = some l[m.toNat] := List.getElem?_eq_getElem hlt
      rw [hv]
      dsimp only
      generalize l[m.toNat] = v at hv
      by_cases c1 : lt v e = true
      · rw [if_pos c1]
        obtain ⟨r, hr, h⟩ := searchLoop_spec hw hs e fuel (m + 1) right (by omega) h1 (by omega)
        refine ⟨r, hr, ?_⟩
        rcases h with ⟨h, k⟩ | ⟨h, k⟩
        · left
          refine ⟨h, fun j w j1 j2 hj => ?_⟩
          by_cases hjm : m < j
          · exact k j w (by omega) j2 hj
          · left
            by_cases he : j = m.toNat
            · rw [he, hv, Option.some.injEq] at hj
              rw [← hj]; exact c1
            · rcases hw.split v w e c1 with h | h
              · rw [sorted_get hs hj hv (by omega)] at h; cases h
              · exact h
        · exact .inr ⟨by omega, k⟩
      · rw [if_neg c1]
        by_cases c2 : lt e v = true
        · rw [if_pos c2]
          obtain ⟨r, hr, h⟩ := searchLoop_spec hw hs e fuel left (m - 1) h0 (by omega) (by omega)
          refine ⟨r, hr, ?_⟩
          rcases h with ⟨h, k⟩ | ⟨h, k⟩
          · left
            refine ⟨h, fun j w j1 j2 hj => ?_⟩
            by_cases hjm : (j : Int) < m
            · exact k j w j1 (by omega) hj
            · right
              by_cases he : j = m.toNat
              · rw [he, hv, Option.some.injEq] at hj
                rw [← hj]; exact c2
              · rcases hw.split e w v c2 with h | h
                · exact h
                · rw [sorted_get hs hv hj (by omega)] at h; cases h
          · exact .inr ⟨h, by omega, k.2⟩
        · rw [if_neg c2]
          exact ⟨m, rfl, .inr ⟨hm1, hm2, v, hv, by simpa using c1, by simpa using c2⟩⟩
    · rw [if_neg hlr]
      exact ⟨-1, rfl, .inl ⟨rfl, fun j v h1 h2 => by omega⟩⟩

/-- Binary search of a sorted list reads only its elements and finds one equivalent to that sought exactly if there is one; minus one
otherwise. -/
theorem C95_search (hw : Weak lt) {l : List α} (hs : Sorted lt l) (e : α) : ∃ r, binarySearch lt l e = some r ∧
    ((r = -1 ∧ ∀ v ∈ l, lt v e = true ∨ lt e v = true) ∨ (0 ≤ r ∧ ∃ v, l[r.toNat]? = some v ∧ lt v e = false ∧ lt e v = false)) := by
  unfold binarySearch
  cases l with
  | nil => exact ⟨-1, rfl, .inl ⟨rfl, fun v hv => by simp at hv⟩⟩
  | cons x l =>
    rw [if_neg (by simp)]
    obtain ⟨r, hr, h⟩ := searchLoop_spec hw hs e ((x :: l).length + 1) 0 ((x :: l).length - 1 : Int) (by omega) (by omega) (by omega)
    refine ⟨r, hr, ?_⟩
    rcases h with ⟨h, k⟩ | ⟨h, k⟩
    · left
      refine ⟨h, fun v hv => ?_⟩
      obtain ⟨j, hj, rfl⟩ := List.getElem_of_mem hv
      exact k j _ (by omega) (by omega) (List.getElem?_eq_getElem hj)
    · exact .inr ⟨h, k.2⟩

/-- With a total order: found exactly if contained, and at a position that holds it. -/
theorem C95_search_total [DecidableEq α] (ht : Total lt) {l : List α} (hs : Sorted lt l) (e : α) :
    ∃ r, binarySearch lt l e = some r ∧ (r = -1 ↔ e ∉ l) ∧ (r ≠ -1 → 0 ≤ r ∧ l[r.toNat]? = some e) := by
  obtain ⟨r, hr, h⟩ := C95_search ht.toWeak hs e
  refine ⟨r, hr, ?_⟩
  rcases h with ⟨rfl, h⟩ | ⟨h, v, h1, h2, h3⟩
  · refine ⟨⟨fun _ hm => ?_, fun _ => rfl⟩, fun h => absurd rfl h⟩
    have := h e hm
    rw [ht.irrefl] at this
    simp at this
  · have := ht.eq v e h2 h3
    subst this
    exact ⟨⟨fun h' => by omega, fun h' => absurd (List.mem_of_getElem? h1) h'⟩, fun _ => ⟨h, h1⟩⟩

theorem takeWhile_all {p : α → Bool} : ∀ {l : List α} {x : α}, x ∈ l.takeWhile p → p x = true
  | y :: l, x, h => by
    rw [List.takeWhile_cons] at h
    split at h
    · rename_i hy
      rw [List.mem_cons] at h
      rcases h with rfl | h
      · exact hy
      · exact takeWhile_all h
    · simp at h

theorem dropWhile_sorted (hw : Weak lt) (e : α) : ∀ {l : List α}, Sorted lt l → ∀ x ∈ l.dropWhile (fun y => !lt e y), lt e x = true
  | y :: l, hs, x, hx => by
    rw [List.dropWhile_cons] at hx
    rw [Sorted, List.pairwise_cons] at hs
    split at hx
    · exact dropWhile_sorted hw e hs.2 x hx
    · rename_i hy
      have hy : lt e y = true := by simpa using hy
      rw [List.mem_cons] at hx
      rcases hx with rfl | hx
      · exact hy
      · rcases hw.split e x y hy with h | h
        · exact h
        · rw [hs.1 x hx] at h; cases h

/-- Insertion into a sorted list leaves it sorted, with the new element after all those it is not before and before the others. -/
theorem C95_insert (hw : Weak lt) {l : List α} (hs : Sorted lt l) (e : α) : Sorted lt (insertSorted lt l e) ∧
    (insertSorted lt l e).Perm (e :: l) ∧
    ∃ a b, l = a ++ b ∧ insertSorted lt l e = a ++ e :: b ∧ (∀ x ∈ a, lt e x = false) ∧ ∀ x ∈ b, lt e x = true := by
  have e1 : l = l.takeWhile (fun y => !lt e y) ++ l.dropWhile (fun y => !lt e y) := List.takeWhile_append_dropWhile.symm
  have ha : ∀ x ∈ l.takeWhile (fun y => !lt e y), lt e x = false := fun x hx => by simpa using takeWhile_all hx
  have hb := dropWhile_sorted hw e hs
  unfold insertSorted
  generalize hA : l.takeWhile (fun y => !lt e y) = a at *
  generalize hB : l.dropWhile (fun y => !lt e y) = b at *
  refine ⟨?_, ?_, a, b, e1, rfl, ha, hb⟩
  · rw [e1] at hs
    rw [Sorted, List.pairwise_append] at hs ⊢
    refine ⟨hs.1, List.pairwise_cons.2 ⟨fun x hx => ?_, hs.2.1⟩, fun x hx y hy => ?_⟩
    · have h1 := hb x hx
      cases h : lt x e with
      | false => rfl
      | true =>
        have := hw.trans _ _ _ h1 h
        rw [hw.irrefl] at this
        cases this
    · rw [List.mem_cons] at hy
      rcases hy with rfl | hy
      · exact ha x hx
      · exact hs.2.2 x hx y hy
  · rw [e1]
    exact List.perm_middle

theorem sortStep_spec (hw : Weak lt) (x : α) : ∀ {l : List α}, Sorted lt l → Sorted lt (sortStep lt x l) ∧ (sortStep lt x l).Perm (x :: l)
  | [], _ => ⟨by simp [sortStep, Sorted], .refl _⟩
  | y :: l, hs => by
    rw [Sorted, List.pairwise_cons] at hs
    rw [sortStep]
    split
    · rename_i h
      obtain ⟨h1, h2⟩ := sortStep_spec hw x hs.2
      refine ⟨List.pairwise_cons.2 ⟨fun z hz => ?_, h1⟩, (h2.cons y).trans (.swap x y l)⟩
      rw [h2.mem_iff, List.mem_cons] at hz
      rcases hz with rfl | hz
      · cases h' : lt z y with
        | false => rfl
        | true =>
          have := hw.trans _ _ _ h h'
          rw [hw.irrefl] at this
          cases this
      · exact hs.1 z hz
    · rename_i h
      have h : lt y x = false := by simpa using h
      refine ⟨List.pairwise_cons.2 ⟨fun z hz => ?_, List.pairwise_cons.2 hs⟩, .refl _⟩
      rw [List.mem_cons] at hz
      rcases hz with rfl | hz
      · exact h
      · cases h' : lt z x with
        | false => rfl
        | true =>
          rcases hw.split z y x h' with k | k
          · rw [hs.1 z hz] at k; cases k
          · rw [h] at k; cases k

theorem sort_spec (hw : Weak lt) : ∀ l : List α, Sorted lt (sort lt l) ∧ (sort lt l).Perm l
  | [] => ⟨.nil, .nil⟩
  | x :: l => by
    obtain ⟨h1, h2⟩ := sort_spec hw l
    obtain ⟨h3, h4⟩ := sortStep_spec hw x h1
    exact ⟨h3, h4.trans (h2.cons x)⟩

theorem unique_spec [DecidableEq α] (ht : Total lt) : ∀ {l : List α}, Sorted lt l →
    (unique l).Nodup ∧ (∀ x, x ∈ unique l ↔ x ∈ l) ∧ (unique l).Sublist l
  | [], _ => ⟨.nil, fun _ => Iff.rfl, .slnil⟩
  | [x], _ => ⟨by simp [unique], fun _ => Iff.rfl, .refl _⟩
  | x :: y :: l, hs => by
    have hs' := hs
    rw [Sorted, List.pairwise_cons] at hs
    obtain ⟨h1, h2, h3⟩ := unique_spec ht hs.2
    rw [unique]
    split
    · rename_i h
      subst h
      exact ⟨h1, fun z => by rw [h2]; simp, h3.cons _⟩
    · rename_i h
      refine ⟨List.nodup_cons.2 ⟨fun hx => ?_, h1⟩, fun z => by simp only [List.mem_cons, h2], h3.cons_cons _⟩
      rw [h2, List.mem_cons] at hx
      rcases hx with hx | hx
      · exact h hx
      · refine h (ht.eq x y ?_ (hs.1 y List.mem_cons_self))
        exact (List.pairwise_cons.1 hs.2).1 x hx

theorem unique_nodup [DecidableEq α] : ∀ {l : List α}, l.Nodup → unique l = l
  | [], _ => rfl
  | [x], _ => rfl
  | x :: y :: l, h => by
    rw [List.nodup_cons] at h
    rw [unique, if_neg (by rintro rfl; exact h.1 List.mem_cons_self), unique_nodup h.2]

/-- Sorting gives the same elements in order; distinct gives each element once, in order; a list is distinct exactly if none repeats. -/
theorem C95_sort [DecidableEq α] (ht : Total lt) (l : List α) :
    (Sorted lt (sort lt l) ∧ (sort lt l).Perm l) ∧
    (Sorted lt (distinct lt l) ∧ (distinct lt l).Nodup ∧ ∀ x, x ∈ distinct lt l ↔ x ∈ l) ∧
    (isDistinct lt l = true ↔ l.Nodup) := by
  obtain ⟨h1, h2⟩ := sort_spec ht.toWeak l
  obtain ⟨h3, h4, h5⟩ := unique_spec ht h1
  refine ⟨⟨h1, h2⟩, ⟨h1.sublist h5, h3, fun x => (h4 x).trans h2.mem_iff⟩, ?_⟩
  unfold isDistinct
  rw [beq_iff_eq]
  constructor
  · intro h
    rw [← h2.nodup_iff, ← h5.eq_of_length h]
    exact h3
  · intro h
    rw [unique_nodup (h2.nodup_iff.2 h)]

/-- The utilities that search and divide lists. -/
theorem C95_lists [DecidableEq α] [Inhabited α] (a b : List α) (e : α) :
    (∀ (l : List α) (x : α), pop (l ++ [x]) = (x, l)) ∧ (∀ (l : List α) (x : α), popFront (x :: l) = (x, l)) ∧ pop ([] : List α) = (default, []) ∧
    ((∀ x, x ∈ difference a b ↔ x ∈ a ∧ x ∉ b) ∧ (difference a b).Sublist a) ∧
    (isIntersecting a b = true ↔ ∃ x, x ∈ a ∧ x ∈ b) ∧
    (startsWith a b = true ↔ ∃ r, a = b ++ r) ∧
    (e ∉ a → part a b e = (false, a, b)) ∧
    (∀ p q, a = p ++ e :: q → e ∉ p → part a b e = (true, p, b ++ e :: q)) ∧
    (findPosition a e = -1 ↔ e ∉ a) ∧ (∀ p q, a = p ++ e :: q → e ∉ p → findPosition a e = p.length) := by
  have hidx : ∀ p q, a = p ++ e :: q → e ∉ p → a.findIdx? (· == e) = some p.length := by
    intro p q h hp
    subst h
    rw [List.findIdx?_eq_some_iff_getElem]
    refine ⟨by simp, by simp, fun j hj => ?_⟩
    rw [List.getElem_append_left hj]
    intro h
    rw [beq_iff_eq] at h
    exact hp (h ▸ List.getElem_mem hj)
  have hnone : e ∉ a → a.findIdx? (· == e) = none := by
    intro h
    rw [List.findIdx?_eq_none_iff]
    intro x hx
    rw [beq_eq_false_iff_ne]
    rintro rfl
    exact h hx
  refine ⟨fun l x => ?_, fun l x => rfl, rfl, ⟨fun x => ?_, List.filter_sublist⟩, ?_, ?_, fun h => ?_, fun p q h hp => ?_, ?_, fun p q h hp => ?_⟩
  · unfold pop
    rw [if_neg (by simp)]
    simp
  · simp [difference, List.mem_filter]
  · simp [isIntersecting]
  · unfold startsWith
    rw [Bool.and_eq_true, beq_iff_eq]
    constructor
    · rintro ⟨-, h⟩
      exact ⟨a.drop b.length, by conv => lhs; rw [← List.take_append_drop b.length a, h]⟩
    · rintro ⟨r, rfl⟩
      simp
  · unfold part
    rw [hnone h]
  · unfold part
    rw [hidx p q h hp]
    subst h
    simp
  · unfold findPosition
    constructor
    · intro h hm
      obtain ⟨p, q, hpq, hp⟩ := List.eq_append_cons_of_mem hm
      rw [hidx p q hpq hp] at h
      dsimp only at h
      omega
    · intro h
      rw [hnone h]
  · unfold findPosition
    rw [hidx p q h hp]

/-! ## Examples -/

theorem nat_total : Total (fun a b : Nat => decide (a < b)) where
  irrefl a := by simp
  trans a b c h k := by simp at *; omega
  split a b c h := by simp at *; omega
  eq a b h k := by simp at *; omega

example : Sorted (fun a b : Nat => decide (a < b)) [1, 3, 3, 5] := by unfold Sorted; decide
example : binarySearch (fun a b : Nat => decide (a < b)) [1, 3, 3, 5] 5 = some 3 := by decide
example : Valid [1, 2, 3, 4] ⟨1, 2⟩ ∧ content [1, 2, 3, 4] ⟨1, 2⟩ = [2, 3] := by
  refine ⟨?_, rfl⟩; unfold Valid; decide
example : fromIterators 3 1 = .none := by decide

end Verif.Containers
