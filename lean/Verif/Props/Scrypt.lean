import Verif.Model.Scrypt
import Verif.Props.Mac
import Verif.Props.Aead
/-!
# C70: scrypt
-/
namespace Verif.Scrypt
open Verif Verif.Spec Verif.Spec.Scrypt
open Verif.Sha (Build)

/-! ## Salsa20/8 -/

theorem double_eq (x : List (BitVec 32)) (h : x.length = 16) :
    statements.foldl assign x = doubleround x ∧ quarters.foldl salsaQr x = doubleround x ∧ (doubleround x).length = 16 := by
  match x, h with
  | [_, _, _, _, _, _, _, _, _, _, _, _, _, _, _, _], _ =>
    refine ⟨?_, ?_, rfl⟩
    · simp only [statements, assign, List.foldl_cons, List.foldl_nil, List.set_cons_succ, List.set_cons_zero, List.getD_cons_succ, List.getD_cons_zero,
        doubleround, rowround, columnround, quarterround]
    · simp only [quarters, salsaQr, assign, List.foldl_cons, List.foldl_nil, List.set_cons_succ, List.set_cons_zero, List.getD_cons_succ, List.getD_cons_zero,
        doubleround, rowround, columnround, quarterround]

theorem rounds_eq (q : Bool) (x : List (BitVec 32)) (h : x.length = 16) :
    rounds q x = doubleround (doubleround (doubleround (doubleround x))) ∧ (rounds q x).length = 16 := by
  obtain ⟨a1, b1, l1⟩ := double_eq x h
  obtain ⟨a2, b2, l2⟩ := double_eq _ l1
  obtain ⟨a3, b3, l3⟩ := double_eq _ l2
  obtain ⟨a4, b4, l4⟩ := double_eq _ l3
  have : rounds q x = doubleround (doubleround (doubleround (doubleround x))) := by
    unfold rounds
    cases q
    · rw [if_neg (by decide)]
      generalize statements = st at *
      show st.foldl assign (st.foldl assign (st.foldl assign (st.foldl assign x))) = _
      rw [a1, a2, a3, a4]
    · rw [if_pos rfl, List.foldl_append, List.foldl_append, List.foldl_append, b1, b2, b3, b4]
  exact ⟨this, by rw [this, l4]⟩

theorem salsa_eq (q : Bool) : salsa8 q = salsa208 := by
  funext block
  unfold salsa8 salsa208
  dsimp only
  rw [(rounds_eq q _ (by simp)).1]

theorem salsa_length (d : Bytes) : (salsa208 d).length = 64 := by
  unfold salsa208
  dsimp only
  generalize hx : (List.range 16).map (fun i => BitVec.ofNat 32 (leNat ((d.drop (4 * i)).take 4))) = x
  have hl : x.length = 16 := by rw [← hx]; simp
  have h := (rounds_eq false x hl)
  rw [h.1] at h
  have hz : (List.zipWith (· + ·) (doubleround (doubleround (doubleround (doubleround x)))) x).length = 16 := by
    rw [List.length_zipWith, h.2, hl]; rfl
  generalize List.zipWith (· + ·) (doubleround (doubleround (doubleround (doubleround x)))) x = z at hz
  rw [List.length_flatMap]
  simp only [leBytes_length]
  rw [List.map_const', List.sum_replicate, hz]
  rfl

/-! ## Mixing -/

theorem getD_get {α : Type} (L : List α) (d : α) {k : Nat} (h : k < L.length) : L.getD k d = L[k] := by
  rw [List.getD_eq_getElem?_getD, List.getElem?_eq_getElem h]; rfl

theorem at_set (B : List Bytes) (i k : Nat) (x : Bytes) (h : i < B.length) : at_ (B.set i x) k = if k = i then x else at_ B k := by
  unfold at_
  by_cases e : k = i
  · subst e
    rw [if_pos rfl, List.getD_eq_getElem?_getD, List.getElem?_set_self h]
    rfl
  · rw [if_neg e, List.getD_eq_getElem?_getD, List.getElem?_set_ne (fun h => e h.symm), ← List.getD_eq_getElem?_getD]

theorem ext_at {A B : List Bytes} (hl : A.length = B.length) (h : ∀ k < A.length, at_ A k = at_ B k) : A = B := by
  apply List.ext_getElem hl
  intro k h1 h2
  have := h k h1
  unfold at_ at this
  rwa [getD_get _ _ h1, getD_get _ _ h2] at this

theorem xor_comm (a c : Bytes) : xorBlock a c = xorBlock c a := by
  unfold xorBlock
  rw [List.zipWith_comm]
  congr 1
  funext x y
  exact UInt8.xor_comm y x

/-- `Y[i - 1]`. -/
def before (X : Bytes) (B : Nat → Bytes) : Nat → Bytes
  | 0 => X
  | i + 1 => mixY X B i

theorem mixY_before (X : Bytes) (B : Nat → Bytes) (i : Nat) : mixY X B i = salsa208 (xorBlock (before X B i) (B i)) := by
  cases i <;> rfl

theorem evenOdd_eq (r : Nat) (X : Bytes) (B0 : List Bytes) (h0 : B0.length = 2 * r) (n : Nat) : ∀ (i : Nat) (B Y : List Bytes),
    i + n = r - 1 → B.length = 2 * r → Y.length = r - 1 →
    (∀ k, at_ B k = if k < i then mixY X (at_ B0) (2 * k) else at_ B0 k) →
    (∀ k < i, at_ Y k = mixY X (at_ B0) (2 * k + 1)) →
    ∃ B' Y' x', evenOdd salsa208 n i B Y (before X (at_ B0) (2 * i)) = (B', Y', x') ∧ B'.length = 2 * r ∧ Y'.length = r - 1 ∧
      (∀ k, at_ B' k = if k < r - 1 then mixY X (at_ B0) (2 * k) else at_ B0 k) ∧
      (∀ k < r - 1, at_ Y' k = mixY X (at_ B0) (2 * k + 1)) ∧ x' = before X (at_ B0) (2 * (r - 1)) := by
  induction n with
  | zero =>
    intro i B Y hi hb hy h1 h2
    rw [Nat.add_zero] at hi
    subst hi
    exact ⟨B, Y, _, rfl, hb, hy, h1, h2, rfl⟩
  | succ n ih =>
    intro i B Y hi hb hy h1 h2
    have e1 : salsa208 (xorBlock (before X (at_ B0) (2 * i)) (at_ B (2 * i))) = mixY X (at_ B0) (2 * i) := by
      rw [h1, if_neg (by omega), ← mixY_before]
    have e2 : salsa208 (xorBlock (mixY X (at_ B0) (2 * i)) (at_ (B.set i (mixY X (at_ B0) (2 * i))) (2 * i + 1))) = mixY X (at_ B0) (2 * i + 1) := by
      rw [at_set _ _ _ _ (by omega), if_neg (by omega), h1, if_neg (by omega)]
      rfl
    obtain ⟨B', Y', x', g⟩ := ih (i + 1) (B.set i (mixY X (at_ B0) (2 * i))) (Y.set i (mixY X (at_ B0) (2 * i + 1))) (by omega) (by simp [hb])
      (by simp [hy]) (by
        intro k
        rw [at_set _ _ _ _ (by omega)]
        by_cases e : k = i
        · rw [if_pos e, if_pos (by omega), e]
        · rw [if_neg e, h1]
          by_cases e2 : k < i
          · rw [if_pos e2, if_pos (by omega)]
          · rw [if_neg e2, if_neg (by omega)]) (by
        intro k hk
        rw [at_set _ _ _ _ (by omega)]
        by_cases e : k = i
        · rw [if_pos e, e]
        · rw [if_neg e]; exact h2 k (by omega))
    refine ⟨B', Y', x', ?_, g.2⟩
    rw [← g.1]
    show evenOdd salsa208 n (i + 1)
      (B.set i (salsa208 (xorBlock (before X (at_ B0) (2 * i)) (at_ B (2 * i)))))
      (Y.set i (salsa208 (xorBlock (salsa208 (xorBlock (before X (at_ B0) (2 * i)) (at_ B (2 * i))))
        (at_ (B.set i (salsa208 (xorBlock (before X (at_ B0) (2 * i)) (at_ B (2 * i))))) (2 * i + 1)))))
      (salsa208 (xorBlock (salsa208 (xorBlock (before X (at_ B0) (2 * i)) (at_ B (2 * i))))
        (at_ (B.set i (salsa208 (xorBlock (before X (at_ B0) (2 * i)) (at_ B (2 * i))))) (2 * i + 1)))) = _
    rw [e1, e2]
    rfl

theorem relocate_eq (r : Nat) (Y : List Bytes) (n : Nat) : ∀ (i : Nat) (B : List Bytes), r + i + n ≤ B.length →
    (relocate r n i B Y).length = B.length ∧ ∀ k, at_ (relocate r n i B Y) k = if r + i ≤ k ∧ k < r + i + n then at_ Y (k - r) else at_ B k := by
  induction n with
  | zero => intro i B _; exact ⟨rfl, fun k => by rw [if_neg (by omega)]; rfl⟩
  | succ n ih =>
    intro i B h
    obtain ⟨g1, g2⟩ := ih (i + 1) (B.set (r + i) (at_ Y i)) (by simp; omega)
    refine ⟨by show (relocate r n (i + 1) _ Y).length = _; rw [g1]; simp, fun k => ?_⟩
    show at_ (relocate r n (i + 1) _ Y) k = _
    rw [g2, at_set _ _ _ _ (by omega)]
    by_cases e : r + (i + 1) ≤ k ∧ k < r + (i + 1) + n
    · rw [if_pos e, if_pos (by omega)]
    · rw [if_neg e]
      by_cases e2 : k = r + i
      · rw [if_pos e2, if_pos (by omega), e2, Nat.add_sub_cancel_left]
      · rw [if_neg e2, if_neg (by omega)]

theorem spec_at (r : Nat) (B : List Bytes) (k : Nat) (hk : k < 2 * r) :
    at_ (Spec.Scrypt.blockMix r B) k = mixY (at_ B (2 * r - 1)) (at_ B) (if k < r then 2 * k else 2 * (k - r) + 1) := by
  unfold Spec.Scrypt.blockMix
  dsimp only
  have hat : (fun i => B.getD i []) = at_ B := rfl
  have hat2 : B.getD (2 * r - 1) [] = at_ B (2 * r - 1) := rfl
  rw [hat, hat2]
  generalize mixY (at_ B (2 * r - 1)) (at_ B) = Y
  unfold at_
  by_cases h : k < r
  · rw [if_pos h, List.getD_eq_getElem?_getD, List.getElem?_append_left (by simpa using h), List.getElem?_map, List.getElem?_range h]
    rfl
  · rw [if_neg h, List.getD_eq_getElem?_getD, List.getElem?_append_right (by simpa using h), List.length_map, List.length_range, List.getElem?_map,
      List.getElem?_range (by omega)]
    rfl

theorem spec_length (r : Nat) (B : List Bytes) : (Spec.Scrypt.blockMix r B).length = 2 * r := by
  unfold Spec.Scrypt.blockMix
  simp; omega

/-- `block_mix` in place, with a buffer of `r - 1` blocks, is `scryptBlockMix`. -/
theorem mix_eq (r : Nat) (hr : 0 < r) (B : List Bytes) (hb : B.length = 2 * r) :
    blockMix salsa208 r true B = (true, Spec.Scrypt.blockMix r B) := by
  obtain ⟨B1, Y1, x1, g1, g2, g3, g4, g5, g6⟩ := evenOdd_eq r (at_ B (2 * r - 1)) B hb (r - 1) 0 B
    (List.replicate (r - 1) (List.replicate 64 0)) (by omega) hb (by simp) (fun k => by rw [if_neg (by omega)]) (fun k hk => by omega)
  have g1 : evenOdd salsa208 (r - 1) 0 B (List.replicate (r - 1) (List.replicate 64 0)) (at_ B (2 * r - 1)) = (B1, Y1, x1) := g1
  unfold blockMix
  simp only [Bool.not_true, Bool.false_eq_true, if_false]
  rw [g1]
  dsimp only
  congr 1
  generalize hX : at_ B (2 * r - 1) = X at *
  have ex : salsa208 (xorBlock x1 (at_ B1 (2 * r - 1 - 1))) = mixY X (at_ B) (2 * (r - 1)) := by
    rw [g4, if_neg (by omega), g6, show 2 * r - 1 - 1 = 2 * (r - 1) by omega, ← mixY_before]
  rw [ex]
  have elast : salsa208 (xorBlock (at_ (B1.set (r - 1) (mixY X (at_ B) (2 * (r - 1)))) (2 * r - 1)) (mixY X (at_ B) (2 * (r - 1)))) =
      mixY X (at_ B) (2 * (r - 1) + 1) ∨ r = 0 := by
    left
    rw [at_set _ _ _ _ (by omega)]
    rw [if_neg (by omega), g4, if_neg (by omega), xor_comm, show 2 * r - 1 = 2 * (r - 1) + 1 by omega]
    rfl
  rcases elast with elast | h
  case inr => omega
  rw [elast]
  obtain ⟨l1, l2⟩ := relocate_eq r Y1 (r - 1) 0 ((B1.set (r - 1) (mixY X (at_ B) (2 * (r - 1)))).set (2 * r - 1) (mixY X (at_ B) (2 * (r - 1) + 1)))
    (by simp [g2]; omega)
  refine ext_at (by rw [l1, spec_length]; simp [g2]) (fun k hk => ?_)
  have hk : k < 2 * r := by rw [l1] at hk; simpa [g2] using hk
  rw [l2, spec_at r B k hk, hX]
  by_cases c1 : r + 0 ≤ k ∧ k < r + 0 + (r - 1)
  · rw [if_pos c1, if_neg (by omega), g5 _ (by omega)]
  · rw [if_neg c1, at_set _ _ _ _ (by simp [g2]; omega), at_set _ _ _ _ (by omega), g4]
    by_cases c2 : k = 2 * r - 1
    · rw [if_pos c2, if_neg (by omega)]
      congr 1; omega
    · rw [if_neg c2]
      by_cases c3 : k = r - 1
      · rw [if_pos c3, if_pos (by omega), c3]
      · rw [if_neg c3, if_pos (by omega), if_pos (by omega)]

/-! ## ROMix -/

theorem times_succ {α : Type} (f : α → α) (n : Nat) (x : α) : times f n (f x) = times f (n + 1) x := by
  induction n with
  | zero => rfl
  | succ n ih => show f (times f n (f x)) = f (times f (n + 1) x); rw [ih]

theorem times_length (r n : Nat) (B : List Bytes) (hb : B.length = 2 * r) : (times (Spec.Scrypt.blockMix r) n B).length = 2 * r := by
  cases n with
  | zero => exact hb
  | succ n => exact spec_length _ _

theorem fill_eq (r : Nat) (hr : 0 < r) (alloc : Nat → Bool) (ha : ∀ i, alloc i = true) (B : List Bytes) (hb : B.length = 2 * r) (n : Nat) :
    ∀ (i : Nat) (V : List (List Bytes)), V.length = i + n → (∀ j < i, V.getD j [] = times (Spec.Scrypt.blockMix r) j B) →
    ∃ V', fill (fun ok B => blockMix salsa208 r ok B) alloc n i V (times (Spec.Scrypt.blockMix r) i B) =
      (true, V', times (Spec.Scrypt.blockMix r) (i + n) B) ∧ ∀ j < i + n, V'.getD j [] = times (Spec.Scrypt.blockMix r) j B := by
  induction n with
  | zero => intro i V _ h; exact ⟨V, rfl, h⟩
  | succ n ih =>
    intro i V hl h
    obtain ⟨V', g1, g2⟩ := ih (i + 1) (V.set i (times (Spec.Scrypt.blockMix r) i B)) (by simp; omega) (by
      intro j hj
      rw [List.getD_eq_getElem?_getD]
      by_cases e : j = i
      · subst e; rw [List.getElem?_set_self (by omega)]; rfl
      · rw [List.getElem?_set_ne (fun h => e h.symm), ← List.getD_eq_getElem?_getD]; exact h j (by omega))
    refine ⟨V', ?_, fun j hj => g2 j (by omega)⟩
    unfold fill
    dsimp only
    rw [ha i, mix_eq r hr _ (times_length r i B hb)]
    dsimp only
    rw [show Spec.Scrypt.blockMix r (times (Spec.Scrypt.blockMix r) i B) = times (Spec.Scrypt.blockMix r) (i + 1) B from rfl, g1, show i + 1 + n = i + (n + 1) by omega]

theorem index_eq (w r : Nat) (hw : w ∣ 2 ^ 64) (B : List Bytes) : index w r B = integerify r B % w := by
  unfold index integerify
  show leNat ((at_ B (2 * r - 1)).take 8) % w = leNat (at_ B (2 * r - 1)) % w
  rw [Poly.leNat_take]
  exact Nat.mod_mod_of_dvd _ hw

theorem xorBlocks_length (A B : List Bytes) : (xorBlocks A B).length = min A.length B.length := List.length_zipWith

theorem stir_eq (w r : Nat) (hr : 0 < r) (hw0 : 0 < w) (hw : w ∣ 2 ^ 64) (alloc : Nat → Bool) (ha : ∀ i, alloc i = true) (B : List Bytes) (hb : B.length = 2 * r)
    (V : List (List Bytes)) (hV : ∀ j < w, V.getD j [] = times (Spec.Scrypt.blockMix r) j B) (n : Nat) : ∀ (i : Nat) (X : List Bytes), X.length = 2 * r →
    stir (fun ok B => blockMix salsa208 r ok B) (index w r) alloc V n i X =
      (true, times (fun X => Spec.Scrypt.blockMix r (List.zipWith Mac.xor X (times (Spec.Scrypt.blockMix r) (integerify r X % w) B))) n X) := by
  induction n with
  | zero => intro i X _; rfl
  | succ n ih =>
    intro i X hX
    unfold stir
    have hi : index w r X < w := by unfold index; exact Nat.mod_lt _ hw0
    rw [ha i, hV _ hi, mix_eq r hr _ (by rw [xorBlocks_length, hX, times_length r _ B hb]; simp), index_eq w r hw]
    dsimp only
    rw [ih (i + 1) _ (spec_length _ _), ← times_succ]
    rfl

/-- `romix` is `scryptROMix` if there is memory. -/
theorem romix_eq (w r : Nat) (hr : 0 < r) (hw0 : 0 < w) (hw : w ∣ 2 ^ 64) (alloc : Nat → Bool) (ha : ∀ i, alloc i = true) (B : List Bytes)
    (hb : B.length = 2 * r) : romix salsa208 w r true alloc B = (true, roMix r w B) := by
  obtain ⟨V, g1, g2⟩ := fill_eq r hr alloc ha B hb w 0 (List.replicate w []) (by simp) (fun j hj => by omega)
  rw [Nat.zero_add] at g1 g2
  have g1 : fill (fun ok B => blockMix salsa208 r ok B) alloc w 0 (List.replicate w []) B = (true, V, times (Spec.Scrypt.blockMix r) w B) := g1
  unfold romix
  simp only [Bool.not_true, Bool.false_eq_true, if_false]
  rw [g1]
  dsimp only
  rw [stir_eq w r hr hw0 hw _ (fun i => ha _) B hb V g2 w 0 _ (times_length r w B hb)]
  rfl

/-! ## The hash -/

theorem visit_eq (w r : Nat) (hr : 0 < r) (hw0 : 0 < w) (hw : w ∣ 2 ^ 64) (m : Memory) (hm : m = Memory.enough) (S : List (List Bytes))
    (hS : ∀ B ∈ S, B.length = 2 * r) (order : List Nat) : ∀ (done : List Nat) (T : List (List Bytes)), T.length = S.length → (done ++ order).Nodup →
    (∀ i ∈ order, i < S.length) → (∀ i < S.length, T.getD i [] = if i ∈ done then roMix r w (S.getD i []) else S.getD i []) →
    ∃ T', order.foldl (visit salsa208 w r m) (true, T) = (true, T') ∧ T'.length = S.length ∧
      ∀ i < S.length, T'.getD i [] = if i ∈ done ++ order then roMix r w (S.getD i []) else S.getD i [] := by
  subst hm
  induction order with
  | nil => intro done T hl _ _ h; exact ⟨T, rfl, hl, by simpa using h⟩
  | cons a order ih =>
    intro done T hl hn hi h
    have ha : a < S.length := hi a (by simp)
    have hna : a ∉ done := fun hh => by
      have := (List.nodup_append.1 hn).2.2 a hh a (by simp)
      exact this rfl
    have hTa : T.getD a [] = S.getD a [] := by rw [h a ha, if_neg hna]
    have hlen : (S.getD a []).length = 2 * r := by
      rw [getD_get _ _ ha]; exact hS _ (List.getElem_mem ha)
    have hv : visit salsa208 w r Memory.enough (true, T) a = (true, T.set a (roMix r w (S.getD a []))) := by
      unfold visit
      rw [if_pos rfl]
      dsimp only
      rw [hTa, show Memory.enough.rom a = true from rfl, show Memory.enough.mix a = fun _ => true from rfl, romix_eq w r hr hw0 hw _ (fun _ => rfl) _ hlen]
    obtain ⟨T', g1, g2, g3⟩ := ih (done ++ [a]) (T.set a (roMix r w (S.getD a []))) (by simp [hl]) (by simpa using hn) (fun i hh => hi i (by simp [hh])) (by
      intro i hi'
      rw [List.getD_eq_getElem?_getD]
      by_cases e : i = a
      · subst e; rw [List.getElem?_set_self (by omega), if_pos (by simp)]; rfl
      · rw [List.getElem?_set_ne (fun h => e h.symm), ← List.getD_eq_getElem?_getD, h i hi']
        simp [e])
    refine ⟨T', ?_, g2, by simpa using g3⟩
    rw [List.foldl_cons, hv, g1]

theorem derive_eq {b : Build} (P S : Bytes) (n : Nat) (hP : P.length + 512 ≤ 2 ^ 61) (hS : S.length + 1024 ≤ 2 ^ 61) :
    derive b P S n = Spec.Scrypt.derive P S n := by
  unfold derive Spec.Scrypt.derive
  exact Hmac.C59_pbkdf2 (Hash.Standard.sha256 (b := b)) true P S 1 n hP hS

theorem roMix_blocks (r w : Nat) (hw : 0 < w) (B : List Bytes) : (roMix r w B).length = 2 * r ∧ ∀ x ∈ roMix r w B, x.length = 64 := by
  obtain ⟨k, rfl⟩ : ∃ k, w = k + 1 := ⟨w - 1, by omega⟩
  unfold roMix
  dsimp only
  show (Spec.Scrypt.blockMix r _).length = _ ∧ ∀ x ∈ Spec.Scrypt.blockMix r _, _
  refine ⟨spec_length _ _, fun x hx => ?_⟩
  unfold Spec.Scrypt.blockMix at hx
  dsimp only at hx
  have : ∀ (X : Bytes) (f : Nat → Bytes) (i : Nat), (mixY X f i).length = 64 := by
    intro X f i; cases i <;> exact salsa_length _
  rcases List.mem_append.1 hx with hx | hx
  all_goals
    obtain ⟨i, _, rfl⟩ := List.mem_map.1 hx
    exact this _ _ _

theorem flat_length (L : List Bytes) (h : ∀ x ∈ L, x.length = 64) : L.flatten.length = 64 * L.length := by
  induction L with
  | nil => rfl
  | cons a L ih => rw [List.flatten_cons, List.length_append, h a (by simp), ih (fun x hx => h x (by simp [hx])), List.length_cons]; omega

theorem flatMap_length (L : List (List Bytes)) (n : Nat) (h : ∀ x ∈ L, x.flatten.length = n) : (L.flatMap List.flatten).length = n * L.length := by
  induction L with
  | nil => rfl
  | cons a L ih =>
    rw [List.flatMap_cons, List.length_append, h a (by simp), ih (fun x hx => h x (by simp [hx])), List.length_cons, Nat.mul_succ]
    omega

/-- **C70** With the memory it asks for, the hash is scrypt, for every order in which the blocks are processed and in both forms of the
rounds. The parameters are those the template accepts: `w` a power of two (a divisor of `2 ^ 64`) above one, `r` and `p` not zero and
the blocks within the limit of the derivation. -/
theorem C70_scrypt (b : Build) (q : Bool) (w r p : Nat) (hw : w ∣ 2 ^ 64) (hw1 : 1 < w) (hr : 0 < r) (hmax : p * 128 * r ≤ (2 ^ 32 - 1) * 32)
    (order : List Nat) (ho : order.Perm (List.range p)) (P S : Bytes) (hP : P.length + 512 ≤ 2 ^ 61) (hS : S.length + 1024 ≤ 2 ^ 61) (size : Nat) :
    hash b q w r p Memory.enough order P S size = some (scrypt P S w r p size) ∧
    hashValue b q w r p Memory.enough order P S size = scrypt P S w r p size := by
  have key : hash b q w r p Memory.enough order P S size = some (scrypt P S w r p size) := by
    unfold hash
    rw [salsa_eq q, show (!Memory.enough.blocks) = false from rfl]
    simp only [Bool.false_eq_true, if_false]
    congr 1
    rw [derive_eq P S _ hP hS]
    generalize hd : Spec.Scrypt.derive P S (p * (2 * r * 64)) = d
    generalize hB : ((List.range p).map fun k => (List.range (2 * r)).map fun i => (d.drop (2 * r * 64 * k + 64 * i)).take 64) = blocks
    have hbl : blocks.length = p := by rw [← hB]; simp
    have hbs : ∀ B ∈ blocks, B.length = 2 * r := by
      intro B hh
      rw [← hB] at hh
      obtain ⟨k, _, rfl⟩ := List.mem_map.1 hh
      simp
    obtain ⟨T, g1, g2, g3⟩ := visit_eq w r hr (by omega) hw Memory.enough rfl blocks hbs order [] blocks rfl
      (by simpa using ho.nodup_iff.2 List.nodup_range) (fun i hi => by rw [hbl]; exact List.mem_range.1 (ho.mem_iff.1 hi)) (fun i _ => by simp)
    rw [g1]
    have hT : T = blocks.map (roMix r w) := by
      apply List.ext_getElem (by simp [g2])
      intro i h1 h2
      have hi : i < blocks.length := by omega
      have := g3 i hi
      rw [if_pos (by rw [List.nil_append]; exact ho.mem_iff.2 (List.mem_range.2 (by omega))), getD_get _ _ h1, getD_get _ _ hi] at this
      rw [this, List.getElem_map]
    have hcut : blocks = (cut (128 * r) p d).map (cut 64 (2 * r)) := by
      rw [← hB]
      unfold cut
      rw [List.map_map]
      apply List.map_congr_left
      intro k _
      apply List.map_congr_left
      intro i hi
      have hi := List.mem_range.1 hi
      show _ = ((((d.drop (128 * r * k)).take (128 * r)).drop (64 * i)).take 64)
      rw [List.drop_take, List.drop_drop, List.take_take, Nat.min_eq_left (by omega), show 2 * r * 64 = 128 * r by omega]
    have hflat : ∀ x ∈ T, x.flatten.length = 128 * r := by
      intro x hx
      rw [hT] at hx
      obtain ⟨B, _, rfl⟩ := List.mem_map.1 hx
      obtain ⟨a1, a2⟩ := roMix_blocks r w (by omega) B
      rw [flat_length _ a2, a1]; omega
    have hlen := flatMap_length T (128 * r) hflat
    rw [g2, hbl] at hlen
    have hlen2 : 128 * r * p = p * 128 * r := by rw [Nat.mul_comm (128 * r), Nat.mul_assoc]
    rw [derive_eq _ _ _ hP (by show (T.flatMap List.flatten).length + 1024 ≤ 2 ^ 61; rw [hlen, hlen2]; omega)]
    unfold scrypt
    dsimp only
    rw [show p * 128 * r = p * (2 * r * 64) by rw [Nat.mul_assoc, show 128 * r = 2 * r * 64 by omega], hd, hT, hcut]
    congr 1
    rw [List.map_map, List.flatMap_map]
    rfl
  exact ⟨key, by unfold hashValue; rw [key]; rfl⟩

/-- **C70** Litecoin's hash: `N = 1024`, `r = p = 1`, the data being password and salt. -/
theorem C70_litecoin (b : Build) (q : Bool) (data : Bytes) (h : data.length + 1024 ≤ 2 ^ 61) :
    scryptHash b q Memory.enough data = scrypt data data 1024 1 1 32 := by
  unfold scryptHash
  exact (C70_scrypt b q 1024 1 1 (by decide) (by decide) (by decide) (by decide) [0] (List.Perm.refl _) data data (by omega) h 32).2

/-- **C70** (defect) If there is memory for the first array only, the hash succeeds nevertheless, with a value that does not depend on
the work parameter: the blocks are not mixed. The documentation says that it fails ("false if out of memory"). -/
theorem C70_memory_counterexample (b : Build) (q : Bool) (w r : Nat) (P S : Bytes) (size : Nat) :
    hash b q w r 1 ⟨true, fun _ => false, fun _ _ => true⟩ [0] P S size =
      some (derive b P (((List.range (2 * r)).map fun i => ((derive b P S (2 * r * 64)).drop (64 * i)).take 64).flatten) size) := by
  unfold hash
  simp only [Bool.not_true, Bool.false_eq_true, if_false]
  simp [visit, romix]

/-- The test vector of RFC 7914, section 8. -/
example : salsa208 [0x7e, 0x87, 0x9a, 0x21, 0x4f, 0x3e, 0xc9, 0x86, 0x7c, 0xa9, 0x40, 0xe6, 0x41, 0x71, 0x8f, 0x26, 0xba, 0xee, 0x55, 0x5b, 0x8c, 0x61, 0xc1, 0xb5, 0x0d, 0xf8, 0x46, 0x11, 0x6d, 0xcd, 0x3b, 0x1d, 0xee, 0x24, 0xf3, 0x19, 0xdf, 0x9b, 0x3d, 0x85, 0x14, 0x12, 0x1e, 0x4b, 0x5a, 0xc5, 0xaa, 0x32, 0x76, 0x02, 0x1d, 0x29, 0x09, 0xc7, 0x48, 0x29, 0xed, 0xeb, 0xc6, 0x8d, 0xb8, 0xb8, 0xc2, 0x5e] =
    [0xa4, 0x1f, 0x85, 0x9c, 0x66, 0x08, 0xcc, 0x99, 0x3b, 0x81, 0xca, 0xcb, 0x02, 0x0c, 0xef, 0x05, 0x04, 0x4b, 0x21, 0x81, 0xa2, 0xfd, 0x33, 0x7d, 0xfd, 0x7b, 0x1c, 0x63, 0x96, 0x68, 0x2f, 0x29, 0xb4, 0x39, 0x31, 0x68, 0xe3, 0xc9, 0xe6, 0xbc, 0xfe, 0x6b, 0xc5, 0xb7, 0xa0, 0x6d, 0x96, 0xba, 0xe4, 0x24, 0xcc, 0x10, 0x2c, 0x91, 0x74, 0x5c, 0x24, 0xad, 0x67, 0x3d, 0xc7, 0x61, 0x8f, 0x81] := by decide +kernel

example : hash Build.portable true 16 2 3 Memory.enough [2, 0, 1] [1] [2] 64 = some (scrypt [1] [2] 16 2 3 64) :=
  (C70_scrypt Build.portable true 16 2 3 (by decide) (by decide) (by decide) (by decide) [2, 0, 1] (by decide) [1] [2] (by decide) (by decide) 64).1

end Verif.Scrypt
