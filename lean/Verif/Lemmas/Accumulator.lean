import Verif.Model.Accumulator
import Verif.Lemmas.Sha
/-!
# The accumulator computes the padded iterated hash of everything written to it, however it is split
-/
namespace Verif.Hash
open Verif.Spec.Hash Verif.Sha

theorem zeros_spec (block count len : Nat) (h : 1 + count ≤ block) :
    (len + 1 + zeros block count len + count) % block = 0 ∧
    ∀ z, (len + 1 + z + count) % block = 0 → zeros block count len ≤ z := by
  have hb : 0 < block := by omega
  have hl := Nat.mod_lt len hb
  have hd := Nat.div_add_mod len block
  have key : zeros block count len < block ∧ ∃ k, len + 1 + zeros block count len + count = block * k := by
    unfold zeros
    refine ⟨Nat.mod_lt _ hb, ?_⟩
    by_cases hc : 2 * block - (1 + count + len % block) < block
    · rw [Nat.mod_eq_of_lt hc]
      refine ⟨len / block + 2, ?_⟩
      rw [Nat.mul_add]
      omega
    · rw [Nat.mod_eq_sub_mod (by omega), Nat.mod_eq_of_lt (by omega)]
      refine ⟨len / block + 1, ?_⟩
      rw [Nat.mul_add]
      omega
  obtain ⟨hz, k, hk⟩ := key
  refine ⟨by rw [hk, Nat.mul_mod_right], ?_⟩
  intro z hz0
  refine Nat.le_of_not_lt fun hlt => ?_
  obtain ⟨j, hj⟩ := Nat.dvd_of_mod_eq_zero hz0
  have h1 : block * j < block * k := by omega
  have h2 : j < k := Nat.lt_of_mul_lt_mul_left h1
  have h3 : block * (j + 1) ≤ block * k := Nat.mul_le_mul_left _ h2
  rw [Nat.mul_add] at h3
  omega

/-! ### Blocks -/

theorem blocksOf_length (n : Nat) (d : Bytes) : (blocksOf n d).length = d.length / n := by simp [blocksOf]

theorem blocksOf_mem {n : Nat} {d b : Bytes} (h : b ∈ blocksOf n d) : b.length = n := by
  simp only [blocksOf, List.mem_map, List.mem_range] at h
  obtain ⟨i, hi, rfl⟩ := h
  rw [List.length_take, List.length_drop]
  have : n * (i + 1) ≤ n * (d.length / n) := Nat.mul_le_mul_left _ hi
  have := Nat.mul_div_le d.length n
  rw [Nat.mul_comm i n]
  rw [Nat.mul_add] at *
  omega

theorem blocksOf_append {n : Nat} (hn : 0 < n) (a b : Bytes) (k : Nat) (ha : a.length = k * n) :
    blocksOf n (a ++ b) = blocksOf n a ++ blocksOf n b := by
  unfold blocksOf
  rw [List.length_append, ha, Nat.add_comm, Nat.add_mul_div_right _ _ hn, Nat.mul_div_cancel _ hn, Nat.add_comm,
    List.range_add, List.map_append, List.map_map]
  congr 1
  · apply List.map_congr_left
    intro i hi
    rw [List.mem_range] at hi
    have : (i + 1) * n ≤ k * n := Nat.mul_le_mul_right _ hi
    rw [Nat.add_mul] at this
    rw [List.drop_append_of_le_length (by omega), List.take_append_of_le_length (by rw [List.length_drop]; omega)]
  · apply List.map_congr_left
    intro i hi
    simp only [Function.comp]
    rw [Nat.add_mul, ← ha, ← List.drop_drop, List.drop_left]

theorem blocksOf_one {n : Nat} (hn : 0 < n) (b : Bytes) (h : b.length = n) : blocksOf n b = [b] := by
  unfold blocksOf
  rw [h, Nat.div_self hn]
  simp [List.range_succ, ← h]

theorem blocksOf_nil (n : Nat) : blocksOf n [] = [] := by simp [blocksOf]

theorem iterate_eq {σ : Type} (n : Nat) (f : σ → Bytes → σ) (h : σ) (m : Bytes) :
    Spec.Hash.iterate n f h m = (blocksOf n m).foldl f h := by
  unfold Spec.Hash.iterate blocksOf
  rw [List.foldl_map]

/-! ### Lawful algorithms -/

variable {σ : Type}

/-- Length encoding of the algorithm. -/
def rep (A : Algorithm σ) : Nat → Nat → List UInt8 := if A.bigEndCount then beRep else leRep

/-- The padding block after `n` whole blocks. -/
def padBlock (A : Algorithm σ) (n : Nat) : Bytes :=
  [0x80] ++ List.replicate (A.blockSize - 1 - A.countSize) 0 ++ rep A A.countSize (8 * (n * A.blockSize))

/-- The padding of half a block. -/
def halfPad (A : Algorithm σ) : Bytes :=
  [0x80] ++ List.replicate (A.halfSize - 1 - A.countSize) 0 ++ rep A A.countSize (8 * A.halfSize)

/-- What the accumulator relies on: the algorithm's functions agree with a compression function `f` on valid states `V`. -/
structure Lawful (A : Algorithm σ) (f : σ → Bytes → σ) (V : σ → Prop) : Prop where
  half : A.blockSize = 2 * A.halfSize
  count : 1 + A.countSize ≤ A.halfSize
  small : A.blockSize ≤ 128
  wide : A.countSize = 8 ∨ A.countSize = 16
  bytes : 32 ≤ A.blockSize
  vH : V A.H
  vf : ∀ s b, V s → b.length = A.blockSize → V (f s b)
  acc : ∀ s bs, V s → (∀ b ∈ bs, b.length = A.blockSize) → A.accumulate s bs = bs.foldl f s
  fin : ∀ s n, V s → n * A.blockSize * 8 < 2 ^ 64 → A.finalizeState s n = f s (padBlock A n)
  hb : ∀ bs, (∀ b ∈ bs, b.length = A.blockSize) → bs.length * A.blockSize * 8 < 2 ^ 64 →
    A.hashBlocks bs = A.normalize (f (bs.foldl f A.H) (padBlock A bs.length))
  hblock : ∀ b, b.length = A.blockSize → A.hashBlock b = A.normalize (f (f A.H b) (padBlock A 1))
  hh : ∀ d, d.length = A.halfSize → A.hashHalf d = A.normalize (f A.H (d ++ halfPad A))

/-- The same for the double hash functions. -/
structure LawfulDouble (A : Algorithm σ) (f : σ → Bytes → σ) (V : σ → Prop) : Prop where
  len : ∀ s, V s → (A.normalize s).length = A.halfSize
  fs : ∀ s, V s → A.finalizeSecond s = A.normalize (f A.H (A.normalize s ++ halfPad A))
  fd : ∀ s n, V s → n * A.blockSize * 8 < 2 ^ 64 →
    A.finalizeDouble s n = A.normalize (f A.H (A.normalize (f s (padBlock A n)) ++ halfPad A))
  hb : ∀ bs, (∀ b ∈ bs, b.length = A.blockSize) → bs.length * A.blockSize * 8 < 2 ^ 64 →
    A.doubleHashBlocks bs = A.normalize (f A.H (A.normalize (f (bs.foldl f A.H) (padBlock A bs.length)) ++ halfPad A))
  hblock : ∀ b, b.length = A.blockSize →
    A.doubleHashBlock b = A.normalize (f A.H (A.normalize (f (f A.H b) (padBlock A 1)) ++ halfPad A))
  hh : ∀ d, d.length = A.halfSize →
    A.doubleHashHalf d = A.normalize (f A.H (A.normalize (f A.H (d ++ halfPad A)) ++ halfPad A))

/-- The digest of a message: the final state of the iteration over the padded message. -/
def digestOf (A : Algorithm σ) (f : σ → Bytes → σ) (m : Bytes) : Bytes :=
  A.normalize (Spec.Hash.iterate A.blockSize f A.H (padded A.blockSize A.countSize (rep A) m))

variable {A : Algorithm σ} {f : σ → Bytes → σ} {V : σ → Prop}

theorem rep_length (n v : Nat) : (rep A n v).length = n := by
  unfold rep
  split
  · simp [beRep]
  · simp [leRep]

/-- Whole blocks are followed by a padding block. -/
theorem padded_blocks (hA : Lawful A f V) (m : Bytes) (k : Nat) (hm : m.length = k * A.blockSize) :
    padded A.blockSize A.countSize (rep A) m = m ++ padBlock A k := by
  have h1 := hA.half
  have h2 := hA.count
  rw [padded, padBlock, hm]
  simp only [List.append_assoc]
  congr 4
  rw [zeros, Nat.mul_mod_left]
  rw [Nat.mod_eq_sub_mod (by omega), Nat.mod_eq_of_lt (by omega)]
  omega

theorem padded_half (hA : Lawful A f V) (m : Bytes) (hm : m.length = A.halfSize) :
    padded A.blockSize A.countSize (rep A) m = m ++ halfPad A := by
  have h1 := hA.half
  have h2 := hA.count
  rw [padded, halfPad, hm]
  simp only [List.append_assoc]
  congr 4
  rw [zeros, Nat.mod_eq_of_lt (show A.halfSize < A.blockSize by omega), Nat.mod_eq_sub_mod (by omega),
    Nat.mod_eq_of_lt (by omega)]
  omega

theorem padBlock_length (hA : Lawful A f V) (n : Nat) : (padBlock A n).length = A.blockSize := by
  have h1 := hA.half
  have h2 := hA.count
  simp [padBlock, rep_length]
  omega

theorem halfPad_length (hA : Lawful A f V) : (halfPad A).length = A.halfSize := by
  have h2 := hA.count
  simp [halfPad, rep_length]
  omega

theorem fold_valid (hA : Lawful A f V) (bs : List Bytes) (hb : ∀ b ∈ bs, b.length = A.blockSize) :
    ∀ s, V s → V (bs.foldl f s) := by
  induction bs with
  | nil => intro s h; exact h
  | cons b bs ih =>
    intro s h
    rw [List.foldl_cons]
    exact ih (fun c hc => hb c (List.mem_cons_of_mem _ hc)) _ (hA.vf s b h (hb b List.mem_cons_self))

/-- The digest of whole blocks. -/
theorem digest_blocks (hA : Lawful A f V) (m : Bytes) (k : Nat) (hm : m.length = k * A.blockSize) :
    digestOf A f m = A.normalize (f ((blocksOf A.blockSize m).foldl f A.H) (padBlock A k)) := by
  have h1 := hA.half
  have h2 := hA.count
  rw [digestOf, padded_blocks hA m k hm, iterate_eq, blocksOf_append (by omega) m _ k hm, List.foldl_append,
    blocksOf_one (by omega) _ (padBlock_length hA k)]
  rfl

theorem digest_half (hA : Lawful A f V) (m : Bytes) (hm : m.length = A.halfSize) :
    digestOf A f m = A.normalize (f A.H (m ++ halfPad A)) := by
  have h1 := hA.half
  have h2 := hA.count
  rw [digestOf, padded_half hA m hm, iterate_eq,
    blocksOf_one (by omega) _ (by rw [List.length_append, hm, halfPad_length hA]; omega)]
  rfl

/-! ### The accumulator invariant -/

/-- The accumulator `c` has consumed the message `m`, starting at state `h0`. -/
structure Inv (A : Algorithm σ) (f : σ → Bytes → σ) (V : σ → Prop) (h0 : σ) (c : Acc σ) (m : Bytes) : Prop where
  size : c.size = m.length
  blen : c.buffer.length = A.blockSize
  split : ∃ full rest k, m = full ++ rest ∧ full.length = k * A.blockSize ∧ rest.length < A.blockSize ∧
    c.buffer.take rest.length = rest ∧ c.state = (blocksOf A.blockSize full).foldl f h0

theorem mod_of_split {bs a b k : Nat} (h : a = k * bs) (hb : b < bs) : (a + b) % bs = b := by
  rw [h, Nat.add_comm, Nat.add_mul_mod_self_right, Nat.mod_eq_of_lt hb]

theorem addData_inv (hA : Lawful A f V) {h0 : σ} {c : Acc σ} {full rest d : Bytes} {k : Nat}
    (hsz : c.size = (full ++ rest).length) (hbl : c.buffer.length = A.blockSize) (hf : full.length = k * A.blockSize)
    (hr : rest.length + d.length ≤ A.blockSize) (hr' : rest.length < A.blockSize)
    (hbuf : c.buffer.take rest.length = rest)
    (hm : (full ++ rest ++ d).length < 2 ^ 64) :
    (addData A c d).size = (full ++ rest ++ d).length ∧ (addData A c d).buffer.length = A.blockSize ∧
    (addData A c d).buffer.take (rest ++ d).length = rest ++ d ∧ (addData A c d).state = c.state := by
  have hnext : next A c = rest.length := by
    rw [next, hsz, List.length_append, mod_of_split hf hr']
  refine ⟨?_, ?_, ?_, rfl⟩
  · show (c.size + d.length) % 2 ^ 64 = _
    rw [hsz]
    simp only [List.length_append] at *
    exact Nat.mod_eq_of_lt (by omega)
  · show (setMany _ _ _).length = _
    rw [setMany_length, hbl]
  · show (setMany _ _ _).take _ = _
    rw [hnext, setMany_eq _ _ _ (by omega), List.length_append]
    rw [hbuf, List.take_append_of_le_length (by simp), ← List.length_append, List.take_length]

theorem accumulate_inv (hA : Lawful A f V) {h0 : σ} (hv : V h0) {c c' : Acc σ} {m d : Bytes} (hi : Inv A f V h0 c m)
    (hm : (m ++ d).length < 2 ^ 64) (h : accumulateData A c d = some c') : Inv A f V h0 c' (m ++ d) := by
  have hb1 := hA.half
  have hb2 := hA.count
  have hbs : 0 < A.blockSize := by omega
  obtain ⟨hsz, hbl, full, rest, k, hmm, hf, hr, hbuf, hst⟩ := hi
  unfold accumulateData at h
  by_cases hc : (!isEmpty A c || decide (d.length < A.blockSize)) = true
  · rw [if_pos hc] at h
    exact absurd h (by simp)
  · rw [if_neg hc] at h
    simp only [Bool.or_eq_true, Bool.not_eq_true', decide_eq_true_eq, not_or, Bool.not_eq_false] at hc
    have hnext : next A c = rest.length := by
      rw [next, hsz, hmm, List.length_append, mod_of_split hf hr]
    have hrest : rest = [] := by
      have := hc.1
      rw [isEmpty, hnext] at this
      exact List.length_eq_zero_iff.mp (by simpa using this)
    subst hrest
    rw [List.append_nil] at hmm
    subst hmm
    have hml := Nat.mod_lt d.length hbs
    have hdm := Nat.div_add_mod d.length A.blockSize
    simp only [Option.some.injEq] at h
    subst h
    generalize hbytes : d.length - d.length % A.blockSize = bytes
    have hb : bytes = d.length / A.blockSize * A.blockSize := by rw [Nat.mul_comm]; omega
    have hble : bytes ≤ d.length := by omega
    have htl : (d.take bytes).length = d.length / A.blockSize * A.blockSize := by rw [List.length_take]; omega
    have hfull' : (m ++ d.take bytes).length = (k + d.length / A.blockSize) * A.blockSize := by
      rw [List.length_append, htl, hf, Nat.add_mul]
    have hacc : A.accumulate c.state (blocksOf A.blockSize (d.take bytes))
        = (blocksOf A.blockSize (m ++ d.take bytes)).foldl f h0 := by
      rw [hA.acc _ _ _ (fun b h => blocksOf_mem h), hst, blocksOf_append hbs m _ k hf, List.foldl_append]
      rw [hst]
      exact fold_valid hA _ (fun b h => blocksOf_mem h) _ hv
    have hsz' : (c.size + bytes) % 2 ^ 64 = (m ++ d.take bytes ++ []).length := by
      rw [hsz, List.append_nil, List.length_append, List.length_take]
      rw [List.length_append] at hm
      rw [Nat.mod_eq_of_lt (by omega)]
      omega
    have hadd := addData_inv (f := f) (V := V) hA (h0 := h0)
      (c := { c with state := A.accumulate c.state (blocksOf A.blockSize (d.take bytes)), size := (c.size + bytes) % 2 ^ 64 })
      (full := m ++ d.take bytes) (rest := []) (d := d.drop bytes) hsz' hbl hfull'
      (by rw [List.length_drop, List.length_nil]; omega) hbs (by simp)
      (by rw [List.append_nil, List.append_assoc, List.take_append_drop]; exact hm)
    obtain ⟨a1, a2, a3, a4⟩ := hadd
    refine ⟨?_, a2, m ++ d.take bytes, d.drop bytes, k + d.length / A.blockSize, ?_, hfull', ?_, ?_, ?_⟩
    · rw [a1, List.append_nil, List.append_assoc, List.take_append_drop]
    · rw [List.append_assoc, List.take_append_drop]
    · rw [List.length_drop]; omega
    · simpa using a3
    · rw [a4]; exact hacc

theorem accumulateData_none {c : Acc σ} {d : Bytes} (h : accumulateData A c d = none) :
    isEmpty A c = false ∨ d.length < A.blockSize := by
  unfold accumulateData at h
  by_cases hc : (!isEmpty A c || decide (d.length < A.blockSize)) = true
  · simpa using hc
  · rw [if_neg hc] at h
    exact absurd h (by simp)

/-- Every write extends the message, whatever its size. -/
theorem write_inv (hA : Lawful A f V) {h0 : σ} (hv : V h0) {checked : Bool} {c : Acc σ} {m d : Bytes}
    (hi : Inv A f V h0 c m) (hm : (m ++ d).length < 2 ^ 64) (hl : checked = true → (m ++ d).length ≤ limitBytes A) :
    (write A checked c d).1 = true ∧ Inv A f V h0 (write A checked c d).2 (m ++ d) := by
  have hb1 := hA.half
  have hb2 := hA.count
  have hbs : 0 < A.blockSize := by omega
  unfold write
  by_cases hd : d.length = 0
  · rw [if_pos hd]
    have : d = [] := List.length_eq_zero_iff.mp hd
    subst this
    rw [List.append_nil]
    exact ⟨rfl, hi⟩
  rw [if_neg hd]
  split
  · rename_i c' hacc
    exact ⟨rfl, accumulate_inv hA hv hi hm hacc⟩
  rename_i hnone
  have hno : isBufferOverflow A checked c d.length = false := by
    unfold isBufferOverflow
    cases checked with
    | false => rfl
    | true =>
      have := hl rfl
      rw [List.length_append, ← hi.size] at this
      have hlim : limitBytes A < 2 ^ (8 * A.countSize) := by
        unfold limitBytes
        have := Nat.two_pow_pos (8 * A.countSize)
        omega
      rw [show limitBytes A + 2 ^ (8 * A.countSize) - c.size = (limitBytes A - c.size) + 2 ^ (8 * A.countSize) by omega,
        Nat.add_mod_right, Nat.mod_eq_of_lt (by omega)]
      simp
      omega
  rw [if_neg (by simp [hno])]
  obtain ⟨hsz, hbl, full, rest, k, hmm, hf, hr, hbuf, hst⟩ := hi
  have hnext : next A c = rest.length := by
    rw [next, hsz, hmm, List.length_append, mod_of_split hf hr]
  have hgap : gap A c = A.blockSize - rest.length := by rw [gap, hnext]
  rw [hgap]
  generalize hacc : min (A.blockSize - rest.length) d.length = acc
  have hacc1 : acc ≤ d.length := by omega
  subst hmm
  have htk : (d.take acc).length = acc := by rw [List.length_take]; omega
  have hm1 : (full ++ rest ++ d.take acc).length < 2 ^ 64 := by
    simp only [List.length_append, htk] at *
    omega
  have hadd := addData_inv (f := f) (V := V) hA (h0 := h0) (c := c) (full := full) (rest := rest) (d := d.take acc) hsz hbl hf
      (by rw [htk]; omega) hr hbuf hm1
  obtain ⟨a1, a2, a3, a4⟩ := hadd
  by_cases hfull : rest.length + acc < A.blockSize
  · -- not full
    have hac : acc = d.length := by omega
    subst hac
    simp only [List.take_length] at a1 a2 a3 a4 ⊢
    have hn : next A (addData A c d) = rest.length + d.length := by
      rw [next, a1, List.append_assoc, List.length_append, List.length_append, mod_of_split hf hfull]
    rw [if_pos (by rw [isEmpty, hn, beq_false_of_ne (by omega)]; rfl)]
    refine ⟨rfl, a1, a2, full, rest ++ d, k, by rw [List.append_assoc], hf, by rw [List.length_append]; exact hfull, a3, ?_⟩
    rw [a4]; exact hst
  · -- full
    have hac : rest.length + acc = A.blockSize := by omega
    have hlen' : (full ++ rest ++ d.take acc).length = (k + 1) * A.blockSize := by
      rw [List.append_assoc, List.length_append, List.length_append, htk, hf, Nat.add_mul]
      omega
    have hn : next A (addData A c (d.take acc)) = 0 := by
      rw [next, a1, hlen', Nat.mul_mod_left]
    rw [if_neg (by rw [isEmpty, hn]; simp)]
    have hbuf' : (addData A c (d.take acc)).buffer = rest ++ d.take acc := by
      rw [← a3]
      conv => lhs; rw [← List.take_length (l := (addData A c (d.take acc)).buffer)]
      rw [a2, List.length_append, htk, hac]
    have hinv2 : Inv A f V h0 { addData A c (d.take acc) with state := (A.accumulate (addData A c (d.take acc)).state
        [(addData A c (d.take acc)).buffer]) } (full ++ rest ++ d.take acc) := by
      refine ⟨a1, a2, full ++ rest ++ d.take acc, [], k + 1, by rw [List.append_nil], hlen', hbs, by simp, ?_⟩
      show A.accumulate _ _ = _
      rw [a4, hst, hbuf', hA.acc _ _ (fold_valid hA _ (fun b h => blocksOf_mem h) _ hv) (by
        intro b hb
        rw [List.mem_singleton] at hb
        rw [hb, List.length_append, htk]
        exact hac)]
      rw [List.append_assoc, blocksOf_append hbs full _ k hf, List.foldl_append,
        blocksOf_one hbs (rest ++ d.take acc) (by rw [List.length_append, htk]; exact hac)]
    have hcat : full ++ rest ++ d = full ++ rest ++ d.take acc ++ d.drop acc := by
      rw [List.append_assoc (full ++ rest), List.take_append_drop]
    dsimp only
    split
    · rename_i c' hacc2
      refine ⟨rfl, ?_⟩
      rw [hcat]
      exact accumulate_inv hA hv hinv2 (by rw [← hcat]; exact hm) hacc2
    · rename_i hacc2
      refine ⟨rfl, ?_⟩
      have hsm : (d.drop acc).length < A.blockSize := by
        rcases accumulateData_none hacc2 with h | h
        · have h' : next A (addData A c (d.take acc)) ≠ 0 := by simpa [isEmpty, next] using h
          exact absurd hn h'
        · exact h
      have hadd2 := addData_inv (f := f) (V := V) hA (h0 := h0)
        (c := { addData A c (d.take acc) with state := (A.accumulate (addData A c (d.take acc)).state
          [(addData A c (d.take acc)).buffer]) }) (full := full ++ rest ++ d.take acc) (rest := []) (d := d.drop acc)
        (by rw [List.append_nil]; exact a1) a2 hlen' (by rw [List.length_nil]; omega) hbs (by simp)
        (by rw [List.append_nil, ← hcat]; exact hm)
      obtain ⟨b1, b2, b3, b4⟩ := hadd2
      refine ⟨?_, b2, full ++ rest ++ d.take acc, d.drop acc, k + 1, hcat, hlen', hsm, by simpa using b3, ?_⟩
      · rw [b1, List.append_nil, ← hcat]
      · rw [b4]
        obtain ⟨_, _, full2, rest2, k2, e1, e2, e3, e4, e5⟩ := hinv2
        have : rest2 = [] := by
          have h1 := congrArg List.length e1
          rw [List.length_append (as := full2), e2, hlen'] at h1
          have h2 : rest2.length = 0 := by
            have := congrArg (· % A.blockSize) h1
            simp only [Nat.mul_mod_left] at this
            rw [Nat.add_comm, Nat.add_mul_mod_self_right, Nat.mod_eq_of_lt e3] at this
            omega
          exact List.length_eq_zero_iff.mp h2
        subst this
        rw [List.append_nil] at e1
        rw [e1]
        exact e5

/-! ### Padding and flushing -/

theorem limit_bound (hA : Lawful A f V) : 2 ^ 61 - 9 ≤ limitBytes A := by
  unfold limitBytes
  rcases hA.wide with h | h <;> rw [h] <;> decide

theorem streamPad_take (hA : Lawful A f V) (c : Acc σ) (n : Nat) (hn : c.size = n) :
    (streamPad A).take (padSize A c) = [0x80] ++ List.replicate (zeros A.blockSize A.countSize n) 0 := by
  have hb1 := hA.half
  have hb2 := hA.count
  have hlt := Nat.mod_lt n (show 0 < A.blockSize by omega)
  have hp : padSize A c = zeros A.blockSize A.countSize n + 1 ∧ zeros A.blockSize A.countSize n ≤ A.blockSize - 1 := by
    unfold padSize zeros next
    rw [hn]
    dsimp only
    generalize n % A.blockSize = r at hlt ⊢
    by_cases h : r < A.blockSize - A.countSize
    · rw [if_pos h, Nat.mod_eq_sub_mod (by omega), Nat.mod_eq_of_lt (by omega)]
      omega
    · rw [if_neg h, Nat.mod_eq_of_lt (by omega)]
      omega
  rw [hp.1, streamPad, List.take_succ_cons, List.take_replicate, Nat.min_eq_left hp.2]
  rfl

theorem serialize_eq (hA : Lawful A f V) (n : Nat) (hn : n < 2 ^ 61) : serialize A n = rep A A.countSize (8 * n) := by
  unfold serialize rep
  dsimp only
  rw [Nat.mod_eq_of_lt (by omega), Nat.mul_comm n 8]
  split
  · rw [beRep_eq]
  · rw [leRep_eq]

theorem padded_length_le (hA : Lawful A f V) (m : Bytes) :
    (padded A.blockSize A.countSize (rep A) m).length ≤ m.length + 2 * A.blockSize := by
  have hb1 := hA.half
  have hb2 := hA.count
  have : zeros A.blockSize A.countSize m.length < A.blockSize := Nat.mod_lt _ (by omega)
  simp [padded, rep_length]
  omega

/-- Padding brings the accumulator to the padded message. -/
theorem pad_inv (hA : Lawful A f V) {h0 : σ} (hv : V h0) {checked : Bool} {c : Acc σ} {m : Bytes}
    (hi : Inv A f V h0 c m) (hm : m.length + 2 * A.blockSize + 9 ≤ 2 ^ 61) :
    Inv A f V h0 (pad A checked c) (padded A.blockSize A.countSize (rep A) m) := by
  have hlim := limit_bound hA
  have hle := padded_length_le hA m
  have hsz := hi.size
  unfold pad
  dsimp only
  rw [streamPad_take hA c m.length hsz, hsz, serialize_eq hA _ (by omega)]
  have e : padded A.blockSize A.countSize (rep A) m = (m ++ ([0x80] ++ List.replicate (zeros A.blockSize A.countSize m.length) 0))
      ++ rep A A.countSize (8 * m.length) := by
    simp only [padded, List.append_assoc]
  rw [e] at hle ⊢
  have hle2 : (m ++ ([0x80] ++ List.replicate (zeros A.blockSize A.countSize m.length) 0)).length ≤ m.length + 2 * A.blockSize := by
    rw [List.length_append] at hle
    omega
  exact (write_inv hA hv (write_inv hA hv hi (by omega) (fun _ => by omega)).2 (by omega) (fun _ => by omega)).2

theorem inv_state (hA : Lawful A f V) {h0 : σ} {c : Acc σ} {m : Bytes} (hi : Inv A f V h0 c m) (k : Nat)
    (hk : m.length = k * A.blockSize) : c.state = Spec.Hash.iterate A.blockSize f h0 m := by
  have hb1 := hA.half
  have hb2 := hA.count
  obtain ⟨_, _, full, rest, k', hmm, hf, hr, hbuf, hst⟩ := hi
  have : rest = [] := by
    have h1 := congrArg List.length hmm
    rw [List.length_append, hk, hf] at h1
    have := congrArg (· % A.blockSize) h1
    simp only [Nat.mul_mod_left] at this
    rw [Nat.add_comm, Nat.add_mul_mod_self_right, Nat.mod_eq_of_lt hr] at this
    exact List.length_eq_zero_iff.mp this.symm
  subst this
  rw [List.append_nil] at hmm
  rw [hmm, iterate_eq, hst]

theorem padded_mod (hA : Lawful A f V) (m : Bytes) :
    ∃ k, (padded A.blockSize A.countSize (rep A) m).length = k * A.blockSize := by
  have hb1 := hA.half
  have hb2 := hA.count
  have h := (zeros_spec A.blockSize A.countSize m.length (by omega)).1
  obtain ⟨k, hk⟩ := Nat.dvd_of_mod_eq_zero h
  refine ⟨k, ?_⟩
  rw [Nat.mul_comm k, ← hk]
  simp [padded, rep_length]
  omega

theorem isEmpty_iff (hA : Lawful A f V) {h0 : σ} {c : Acc σ} {m : Bytes} (hi : Inv A f V h0 c m) :
    isEmpty A c = true ↔ m.length % A.blockSize = 0 := by
  simp [isEmpty, next, hi.size]

theorem iterate_valid (hA : Lawful A f V) {h0 : σ} (hv : V h0) (m : Bytes) : V (Spec.Hash.iterate A.blockSize f h0 m) := by
  rw [iterate_eq]
  exact fold_valid hA _ (fun b h => blocksOf_mem h) _ hv

/-- The state after flushing, for any initial state. -/
theorem flush_state (hA : Lawful A f V) {h0 : σ} (hv : V h0) {checked : Bool} {c : Acc σ} {m : Bytes}
    (hi : Inv A f V h0 c m) (hm : m.length + 2 * A.blockSize + 9 ≤ 2 ^ 61) :
    (flush A checked c).1 = A.normalize (Spec.Hash.iterate A.blockSize f h0 (padded A.blockSize A.countSize (rep A) m)) ∧
    (flush A checked c).2.buffer.length = A.blockSize := by
  have hb1 := hA.half
  have hb2 := hA.count
  unfold flush
  by_cases h : isEmpty A c = true
  · rw [if_pos h]
    have hmod := (isEmpty_iff hA hi).mp h
    obtain ⟨k, hk⟩ := Nat.dvd_of_mod_eq_zero hmod
    rw [Nat.mul_comm] at hk
    refine ⟨?_, hi.blen⟩
    dsimp only
    have hst := inv_state hA hi k hk
    rw [hi.size, hk, Nat.mul_div_cancel _ (by omega), hA.fin _ _ (by rw [hst]; exact iterate_valid hA hv m) (by omega), hst,
      padded_blocks hA m k hk, iterate_eq, iterate_eq, blocksOf_append (by omega) m _ k hk, List.foldl_append,
      blocksOf_one (by omega) _ (padBlock_length hA k)]
    rfl
  · rw [if_neg h]
    have hp := pad_inv (checked := checked) hA hv hi hm
    obtain ⟨k, hk⟩ := padded_mod hA m
    exact ⟨by dsimp only; rw [inv_state hA hp k hk], hp.blen⟩

theorem flush_digest (hA : Lawful A f V) {checked : Bool} {c : Acc σ} {m : Bytes}
    (hi : Inv A f V A.H c m) (hm : m.length + 2 * A.blockSize + 9 ≤ 2 ^ 61) :
    (flush A checked c).1 = digestOf A f m := (flush_state hA hA.vH hi hm).1

theorem doubleFlush_digest (hA : Lawful A f V) (hD : LawfulDouble A f V) {checked : Bool} {c : Acc σ} {m : Bytes}
    (hi : Inv A f V A.H c m) (hm : m.length + 2 * A.blockSize + 9 ≤ 2 ^ 61) :
    doubleFlush A checked c = digestOf A f (digestOf A f m) := by
  have hb1 := hA.half
  have hb2 := hA.count
  have hV : V (Spec.Hash.iterate A.blockSize f A.H (padded A.blockSize A.countSize (rep A) m)) := iterate_valid hA hA.vH _
  rw [digest_half hA (digestOf A f m) (hD.len _ hV)]
  unfold doubleFlush
  by_cases h : isEmpty A c = true
  · rw [if_pos h]
    have hmod := (isEmpty_iff hA hi).mp h
    obtain ⟨k, hk⟩ := Nat.dvd_of_mod_eq_zero hmod
    rw [Nat.mul_comm] at hk
    have hst := inv_state hA hi k hk
    rw [hi.size, hk, Nat.mul_div_cancel _ (by omega), hD.fd _ _ (by rw [hst]; exact iterate_valid hA hA.vH m) (by omega), hst,
      digest_blocks hA m k hk, iterate_eq]
  · rw [if_neg h]
    have hp := pad_inv (checked := checked) hA hA.vH hi hm
    obtain ⟨k, hk⟩ := padded_mod hA m
    rw [inv_state hA hp k hk, hD.fs _ hV]
    rfl

/-! ### Beginning -/

theorem init_inv (hA : Lawful A f V) (h0 : σ) : Inv A f V h0 { init A with state := h0 } [] :=
  ⟨rfl, by simp [init], [], [], 0, rfl, by simp, by have := hA.half; have := hA.count; simp; omega, by simp, by simp [blocksOf]⟩

theorem init_inv' (hA : Lawful A f V) : Inv A f V A.H (init A) [] := init_inv hA A.H

theorem reset_inv (hA : Lawful A f V) {c : Acc σ} (hc : c.buffer.length = A.blockSize) (prefix_ : Bytes) (k : Nat)
    (hk : prefix_.length = k * A.blockSize) (h64 : prefix_.length < 2 ^ 64) (h0 : σ) :
    Inv A f V h0 (reset A c (Spec.Hash.iterate A.blockSize f h0 prefix_) k) prefix_ := by
  refine ⟨?_, hc, prefix_, [], k, by simp, hk, by have := hA.half; have := hA.count; simp; omega, by simp, ?_⟩
  · show (k * A.blockSize) % 2 ^ 64 = _
    rw [← hk, Nat.mod_eq_of_lt h64]
  · show Spec.Hash.iterate _ _ _ _ = _
    rw [iterate_eq]

theorem writes_inv (hA : Lawful A f V) {h0 : σ} (hv : V h0) {checked : Bool} (ws : List Bytes) : ∀ {c : Acc σ} {m : Bytes},
    Inv A f V h0 c m → (m ++ ws.flatten).length + 9 ≤ 2 ^ 61 → Inv A f V h0 (writes A checked c ws) (m ++ ws.flatten) := by
  have hlim := limit_bound hA
  induction ws with
  | nil => intro c m hi _; simpa [writes] using hi
  | cons d ws ih =>
    intro c m hi hm
    rw [List.flatten_cons, ← List.append_assoc] at hm ⊢
    have h2 : (m ++ d).length ≤ (m ++ d ++ ws.flatten).length := by rw [List.length_append (as := m ++ d)]; omega
    have hw := write_inv (checked := checked) hA hv hi (d := d) (by omega) (fun _ => by omega)
    exact ih hw.2 hm

/-! ### One-call hashing -/

theorem hash_digest (hA : Lawful A f V) (checked : Bool) (m : Bytes) (hm : m.length + 2 * A.blockSize + 9 ≤ 2 ^ 61) :
    hash A checked m = digestOf A f m := by
  have hb1 := hA.half
  have hb2 := hA.count
  have hlim := limit_bound hA
  unfold hash
  by_cases h0 : m.length = 0
  · rw [if_pos h0]
    have : m = [] := List.length_eq_zero_iff.mp h0
    subst this
    rw [digest_blocks hA [] 0 (by simp), hA.hb [] (by simp) (by simp)]
    simp [blocksOf]
  rw [if_neg h0]
  by_cases h1 : m.length = A.halfSize
  · rw [if_pos h1, digest_half hA m h1, hA.hh m h1]
  rw [if_neg h1]
  by_cases h2 : m.length = A.blockSize
  · rw [if_pos h2, digest_blocks hA m 1 (by omega), hA.hblock m h2, blocksOf_one (by omega) m h2]
    rfl
  rw [if_neg h2]
  by_cases h3 : m.length % A.blockSize = 0
  · rw [if_pos h3]
    obtain ⟨k, hk⟩ := Nat.dvd_of_mod_eq_zero h3
    rw [Nat.mul_comm] at hk
    have hl : (blocksOf A.blockSize m).length = k := by rw [blocksOf_length, hk, Nat.mul_div_cancel _ (by omega)]
    rw [digest_blocks hA m k hk, hA.hb _ (fun b h => blocksOf_mem h) (by rw [hl]; omega), hl]
  · rw [if_neg h3]
    exact flush_digest hA (by
      have := (write_inv (checked := checked) hA hA.vH (init_inv' hA) (d := m) (by simp; omega) (fun _ => by simp; omega)).2
      simpa using this) hm

theorem doubleHash_digest (hA : Lawful A f V) (hD : LawfulDouble A f V) (checked : Bool) (m : Bytes)
    (hm : m.length + 2 * A.blockSize + 9 ≤ 2 ^ 61) : doubleHash A checked m = digestOf A f (digestOf A f m) := by
  have hb1 := hA.half
  have hb2 := hA.count
  have hlim := limit_bound hA
  have hV : V (Spec.Hash.iterate A.blockSize f A.H (padded A.blockSize A.countSize (rep A) m)) := iterate_valid hA hA.vH _
  have e := digest_half hA (digestOf A f m) (hD.len _ hV)
  unfold doubleHash
  by_cases h0 : m.length = 0
  · rw [if_pos h0, e]
    have : m = [] := List.length_eq_zero_iff.mp h0
    subst this
    rw [digest_blocks hA [] 0 (by simp), hD.hb [] (by simp) (by simp)]
    simp [blocksOf]
  rw [if_neg h0]
  by_cases h1 : m.length = A.halfSize
  · rw [if_pos h1, e, digest_half hA m h1, hD.hh m h1]
  rw [if_neg h1]
  by_cases h2 : m.length = A.blockSize
  · rw [if_pos h2, e, digest_blocks hA m 1 (by omega), hD.hblock m h2, blocksOf_one (by omega) m h2]
    rfl
  rw [if_neg h2]
  by_cases h3 : m.length % A.blockSize = 0
  · rw [if_pos h3, e]
    obtain ⟨k, hk⟩ := Nat.dvd_of_mod_eq_zero h3
    rw [Nat.mul_comm] at hk
    have hl : (blocksOf A.blockSize m).length = k := by rw [blocksOf_length, hk, Nat.mul_div_cancel _ (by omega)]
    rw [digest_blocks hA m k hk, hD.hb _ (fun b h => blocksOf_mem h) (by rw [hl]; omega), hl]
  · rw [if_neg h3]
    exact doubleFlush_digest hA hD (by
      have := (write_inv (checked := checked) hA hA.vH (init_inv' hA) (d := m) (by simp; omega) (fun _ => by simp; omega)).2
      simpa using this) hm

end Verif.Hash
