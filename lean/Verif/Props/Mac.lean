import Verif.Lemmas.Mac
import Verif.Props.Hash
/-!
# C59: HMAC, PBKDF2 and HKDF are the functions of RFC 2104, RFC 8018 and RFC 5869, for every accumulator based hash
-/
namespace Verif.Hmac
open Verif.Hash

variable {b : Sha.Build} {σ : Type} {A : Algorithm σ} {D : Bytes → Bytes} {n : Nat}

theorem standard_small (h : Standard b A D n) : 0 < n ∧ n ≤ A.blockSize := by
  cases h <;> exact ⟨by decide, Nat.le_of_ble_eq_true rfl⟩

/-- Pointwise equal functions. -/
theorem flatMap_eq {α β : Type} {l : List α} {f g : α → List β} (h : ∀ a ∈ l, f a = g a) : l.flatMap f = l.flatMap g := by
  induction l with
  | nil => rfl
  | cons a l ih =>
    rw [List.flatMap_cons, List.flatMap_cons, h a (by simp), ih (fun x hx => h x (by simp [hx]))]

/-- The block sizes: 64 bytes for RIPEMD, SHA-1 and the SHA-256 family, 128 bytes for the SHA-512 family. -/
theorem C59_block_sizes (b : Sha.Build) :
    (shaAlgorithm b Sha.sha160).blockSize = 64 ∧ (shaAlgorithm b Sha.sha256).blockSize = 64 ∧
    (shaAlgorithm b Sha.sha256_224).blockSize = 64 ∧ (shaAlgorithm b Sha.sha512).blockSize = 128 ∧
    (shaAlgorithm b Sha.sha512_384).blockSize = 128 ∧ (shaAlgorithm b Sha.sha512_256).blockSize = 128 ∧
    (shaAlgorithm b Sha.sha512_224).blockSize = 128 := ⟨rfl, rfl, rfl, rfl, rfl, rfl, rfl⟩

/-- The code of any sequence of chunks under any key. -/
theorem C59_hmac_chunks (h : Standard b A D n) (checked : Bool) (key : Bytes) (chunks : List Bytes)
    (hk : key.length + 512 ≤ 2 ^ 61) (hl : chunks.flatten.length + 512 ≤ 2 ^ 61) :
    flush A checked (chunks.foldl (write A checked) (create A checked key)) = Spec.Mac.hmac D A.blockSize key chunks.flatten := by
  have hn : ∀ m, (D m).length ≤ A.blockSize := fun m => by rw [standard_length h]; exact (standard_small h).2
  obtain ⟨f, V, hA, rfl, _⟩ := standard_lawful h
  have hkl := blockKey_length (digestOf A f) A.blockSize key hn
  have := writes_holds hA checked hkl chunks (create_holds hA hn checked key hk) (by simpa using hl)
  rw [List.nil_append] at this
  exact flush_holds hA hn checked this hkl hl

/-- The one call code. -/
theorem C59_hmac (h : Standard b A D n) (checked : Bool) (key data : Bytes)
    (hk : key.length + 512 ≤ 2 ^ 61) (hl : data.length + 512 ≤ 2 ^ 61) :
    code A checked data key = Spec.Mac.hmac D A.blockSize key data := by
  have := C59_hmac_chunks h checked key [data] hk (by simpa using hl)
  simpa [code] using this

theorem hmac_length (h : Standard b A D n) (key text : Bytes) : (Spec.Mac.hmac D A.blockSize key text).length = n :=
  standard_length h _

/-! ### PBKDF2 -/

/-- Whole blocks and a part of the last: the first bytes of the concatenation. -/
theorem take_blocks (T : Nat → Bytes) (n size : Nat) (hn : 0 < n) (hT : ∀ i, (T i).length = n) :
    ((List.range' 1 ((size + n - 1) / n)).flatMap fun i =>
      (T i).take (if i = (size + n - 1) / n then size - ((size + n - 1) / n - 1) * n else (T i).length))
    = ((List.range ((size + n - 1) / n)).flatMap fun i => T (i + 1)).take size := by
  have h1 := Nat.div_add_mod (size + n - 1) n
  have h2 := Nat.mod_lt (size + n - 1) hn
  generalize (size + n - 1) / n = l at *
  generalize (size + n - 1) % n = m at *
  cases l with
  | zero =>
    simp
  | succ k =>
    have hlen : ∀ j, ((List.range j).flatMap fun i => T (i + 1)).length = j * n := by
      intro j
      induction j with
      | zero => simp
      | succ j ih =>
        rw [@List.range_succ j, List.flatMap_append, List.length_append, ih]
        simp [hT, Nat.succ_mul]
    rw [Nat.mul_succ, Nat.mul_comm n k] at h1
    rw [@List.range_succ k, List.flatMap_append, List.take_append, hlen, List.take_of_length_le (by rw [hlen]; omega)]
    rw [show List.range' 1 (k + 1) = List.range' 1 k ++ [k + 1] by rw [List.range'_concat]; simp [Nat.add_comm]]
    rw [List.flatMap_append]
    congr 1
    · rw [List.range'_eq_map_range, List.flatMap_map]
      apply flatMap_eq
      intro i hi
      have := List.mem_range.1 hi
      rw [if_neg (by omega), List.take_of_length_le (by omega), Nat.add_comm]
    · simp

/-- The loop of one block of PBKDF2. -/
theorem pbkd_loop (g : Bytes → Bytes) (u0 : Bytes) (u : Nat → Bytes) (h0 : u 0 = u0) (hs : ∀ j, u (j + 1) = g (u j)) (k : Nat) :
    (List.range k).foldl (fun (s : Bytes × Bytes) _ => (g s.1, xorEq s.2 (g s.1))) (u0, u0)
      = (u k, (List.range' 1 k).foldl (fun t j => Spec.Mac.xor t (u j)) u0) := by
  induction k with
  | zero => simp [h0]
  | succ k ih =>
    rw [@List.range_succ k, List.foldl_append, ih, List.range'_concat, List.foldl_append]
    simp only [List.foldl_cons, List.foldl_nil, ← hs, Nat.one_mul, Nat.add_comm 1 k]
    rfl

theorem pbkdBlock_eq (h : Standard b A D n) (checked : Bool) (password salt : Bytes) (count i : Nat)
    (hp : password.length + 512 ≤ 2 ^ 61) (hs : salt.length + 1024 ≤ 2 ^ 61) :
    pbkdBlock A checked (create A checked password) (write A checked (create A checked password) salt) count i
      = Spec.Mac.F (Spec.Mac.hmac D A.blockSize) password salt count i := by
  have hn := (standard_small h).2
  have hu : flush A checked (write A checked (write A checked (create A checked password) salt) (beBytes 4 i))
      = Spec.Mac.U (Spec.Mac.hmac D A.blockSize) password salt i 0 := by
    have hb4 : (beBytes 4 i).length = 4 := by simp [beBytes, leBytes_length]
    have := C59_hmac_chunks h checked password [salt, beBytes 4 i] hp (by simp [hb4]; omega)
    simpa [Spec.Mac.U, Sha.beRep_eq] using this
  have hg : ∀ m : Bytes, m.length = n → flush A checked (write A checked (create A checked password) m)
      = Spec.Mac.hmac D A.blockSize password m := by
    intro m hm
    have hsm : A.blockSize ≤ 128 := by
      obtain ⟨f, V, hA, _, _⟩ := standard_lawful h
      exact hA.small
    exact C59_hmac h checked password m hp (by omega)
  have hul : ∀ j, (Spec.Mac.U (Spec.Mac.hmac D A.blockSize) password salt i j).length = n := by
    intro j
    cases j <;> exact hmac_length h _ _
  have hus : ∀ j, Spec.Mac.U (Spec.Mac.hmac D A.blockSize) password salt i (j + 1)
      = flush A checked (write A checked (create A checked password) (Spec.Mac.U (Spec.Mac.hmac D A.blockSize) password salt i j)) :=
    fun j => (hg _ (hul j)).symm
  unfold pbkdBlock Spec.Mac.F
  rw [hu]
  have := pbkd_loop (fun s => flush A checked (write A checked (create A checked password) s)) _ _ rfl hus (count - 1)
  exact congrArg Prod.snd this

/-- The derived key, for every size, iteration count, password and salt. -/
theorem C59_pbkdf2 (h : Standard b A D n) (checked : Bool) (password salt : Bytes) (count size : Nat)
    (hp : password.length + 512 ≤ 2 ^ 61) (hs : salt.length + 1024 ≤ 2 ^ 61) :
    pbkdKey A checked n size password salt count = Spec.Mac.pbkdf2 (Spec.Mac.hmac D A.blockSize) n password salt count size := by
  have hn := (standard_small h).1
  have hF : ∀ i, (Spec.Mac.F (Spec.Mac.hmac D A.blockSize) password salt count i).length = n := by
    intro i
    unfold Spec.Mac.F
    have hU : ∀ j, (Spec.Mac.U (Spec.Mac.hmac D A.blockSize) password salt i j).length = n := by
      intro j
      cases j <;> exact hmac_length h _ _
    have : ∀ (l : List Nat) (t : Bytes), t.length = n →
        (l.foldl (fun t j => Spec.Mac.xor t (Spec.Mac.U (Spec.Mac.hmac D A.blockSize) password salt i j)) t).length = n := by
      intro l
      induction l with
      | nil => intro t ht; exact ht
      | cons j l ih =>
        intro t ht
        exact ih _ (by rw [xor_length _ _ (by rw [ht, hU]), hU])
    exact this _ _ (hU 0)
  unfold pbkdKey Spec.Mac.pbkdf2
  simp only [pbkdBlock_eq h checked password salt count _ hp hs]
  exact take_blocks _ n size hn hF

/-! ### HKDF -/

/-- Extraction. -/
theorem C59_hkdf_extract (h : Standard b A D n) (checked : Bool) (material salt : Bytes)
    (hm : material.length + 512 ≤ 2 ^ 61) (hs : salt.length + 512 ≤ 2 ^ 61) :
    hkdfExtract A checked material salt = Spec.Mac.hmac D A.blockSize salt material := C59_hmac h checked salt material hs hm

theorem hkdf_loop (h : Standard b A D n) (checked : Bool) (key info : Bytes) (blocks remain : Nat) (hb : blocks < 255)
    (hk : key.length + 512 ≤ 2 ^ 61) (hi : info.length + 1024 ≤ 2 ^ 61) : ∀ (left i fuel : Nat) (t out : Bytes), i + left = blocks →
    left < fuel → (i ≠ 0 → t = Spec.Mac.hkdfT (Spec.Mac.hmac D A.blockSize) key info i) →
    hkdfLoop A checked blocks remain n key info fuel (i + 1) t out
      = some (out ++ (List.range' (i + 1) left).flatMap fun j =>
          (Spec.Mac.hkdfT (Spec.Mac.hmac D A.blockSize) key info j).take (if j = blocks then remain else n)) := by
  have hsm : A.blockSize ≤ 128 := by
    obtain ⟨f, V, hA, _, _⟩ := standard_lawful h
    exact hA.small
  have hn := (standard_small h).2
  intro left
  induction left with
  | zero =>
    intro i fuel t out h1 h2 h3
    obtain ⟨fuel, rfl⟩ : ∃ g, fuel = g + 1 := ⟨fuel - 1, by omega⟩
    rw [hkdfLoop, if_neg (by omega)]
    simp
  | succ left ih =>
    intro i fuel t out h1 h2 h3
    obtain ⟨fuel, rfl⟩ : ∃ g, fuel = g + 1 := ⟨fuel - 1, by omega⟩
    rw [hkdfLoop, if_pos (by omega)]
    dsimp only
    have ht : flush A checked (write A checked (write A checked
        (if i + 1 ≠ 1 then write A checked (create A checked key) t else create A checked key) info) [UInt8.ofNat (i + 1)])
        = Spec.Mac.hkdfT (Spec.Mac.hmac D A.blockSize) key info (i + 1) := by
      by_cases hi0 : i = 0
      · subst hi0
        rw [if_neg (by decide)]
        have := C59_hmac_chunks h checked key [info, [UInt8.ofNat (0 + 1)]] hk (by simp; omega)
        simpa [Spec.Mac.hkdfT] using this
      · rw [if_pos (by omega), h3 hi0]
        have hl : (Spec.Mac.hkdfT (Spec.Mac.hmac D A.blockSize) key info i).length = n := by
          cases i with
          | zero => exact absurd rfl hi0
          | succ i => exact hmac_length h _ _
        have := C59_hmac_chunks h checked key [Spec.Mac.hkdfT (Spec.Mac.hmac D A.blockSize) key info i, info, [UInt8.ofNat (i + 1)]] hk
          (by simp [hl]; omega)
        rw [Spec.Mac.hkdfT]
        simpa using this
    rw [ht, Nat.mod_eq_of_lt (by omega), ih (i + 1) fuel _ _ (by omega) (by omega) (fun _ => rfl)]
    rw [List.range'_succ, List.flatMap_cons, List.append_assoc]

/-- Expansion: the loop ends after one test more than there are blocks, with the output of RFC 5869, for fewer than 255 blocks. -/
theorem C59_hkdf_expand (h : Standard b A D n) (checked : Bool) (key info : Bytes) (size fuel : Nat) (hsize : size ≤ 254 * n)
    (hk : key.length = n) (hi : info.length + 1024 ≤ 2 ^ 61) (hf : (size + n - 1) / n < fuel) :
    hkdfExpand A checked fuel n size key info = some (Spec.Mac.hkdfExpand (Spec.Mac.hmac D A.blockSize) n key info size) := by
  have hsm : A.blockSize ≤ 128 := by
    obtain ⟨f, V, hA, _, _⟩ := standard_lawful h
    exact hA.small
  have hn := standard_small h
  have hb : (size + n - 1) / n < 255 := by
    rw [Nat.div_lt_iff_lt_mul hn.1]
    omega
  unfold hkdfExpand
  dsimp only
  rw [hkdf_loop h checked key info _ _ hb (by omega) hi ((size + n - 1) / n) 0 fuel _ _ (by omega) hf (fun h => absurd rfl h)]
  rw [List.nil_append]
  congr 1
  have hT : ∀ i, 0 < i → (Spec.Mac.hkdfT (Spec.Mac.hmac D A.blockSize) key info i).length = n := by
    intro i hi
    cases i with
    | zero => omega
    | succ i => exact hmac_length h _ _
  have e := take_blocks (fun i => if i = 0 then List.replicate n 0 else Spec.Mac.hkdfT (Spec.Mac.hmac D A.blockSize) key info i) n size hn.1
    (by intro i; by_cases h0 : i = 0
        · simp [h0]
        · simp only [if_neg h0]; exact hT i (by omega))
  unfold Spec.Mac.hkdfExpand
  simp only [Nat.add_eq_zero_iff, Nat.one_ne_zero, and_false, if_false] at e
  rw [← e]
  apply flatMap_eq
  intro i hi
  have h0 : i ≠ 0 := by
    have := (List.mem_range'_1.1 hi).1
    omega
  simp only [if_neg h0, hT i (by omega)]

/-- Extract and expand. -/
theorem C59_hkdf (h : Standard b A D n) (checked : Bool) (material salt info : Bytes) (size fuel : Nat) (hsize : size ≤ 254 * n)
    (hm : material.length + 512 ≤ 2 ^ 61) (hs : salt.length + 512 ≤ 2 ^ 61) (hi : info.length + 1024 ≤ 2 ^ 61)
    (hf : (size + n - 1) / n < fuel) :
    hkdfExpand A checked fuel n size (hkdfExtract A checked material salt) info
      = some (Spec.Mac.hkdf (Spec.Mac.hmac D A.blockSize) n material salt info size) := by
  rw [C59_hkdf_extract h checked material salt hm hs]
  exact C59_hkdf_expand h checked _ info size fuel hsize (hmac_length h _ _) hi hf

theorem hkdf_endless (checked : Bool) (key info : Bytes) (remain length : Nat) : ∀ (fuel block : Nat) (t out : Bytes), block < 256 →
    hkdfLoop A checked 255 remain length key info fuel block t out = none := by
  intro fuel
  induction fuel with
  | zero => intros; rfl
  | succ fuel ih =>
    intro block t out h
    rw [hkdfLoop, if_pos (by omega)]
    exact ih _ _ _ (Nat.mod_lt _ (by decide))

/-- The permitted sizes above 254 digests are never produced: the eight bit block counter cannot exceed 255, so the loop
does not end (and writes past the output). -/
theorem C59_hkdf_counterexample (h : Standard b A D n) (checked : Bool) (key info : Bytes) (size fuel : Nat)
    (h1 : 254 * n < size) (h2 : size ≤ 255 * n) : hkdfExpand A checked fuel n size key info = none := by
  have hn := (standard_small h).1
  have hb : (size + n - 1) / n = 255 := by
    apply Nat.div_eq_of_lt_le <;> omega
  unfold hkdfExpand
  rw [hb]
  exact hkdf_endless checked key info _ _ fuel 1 _ _ (by decide)

/-! ### Instances: published test vectors -/

/-- RFC 4231 test case 2. -/
example : code (shaAlgorithm Sha.Build.portable Sha.sha256) true
    [0x77, 0x68, 0x61, 0x74, 0x20, 0x64, 0x6f, 0x20, 0x79, 0x61, 0x20, 0x77, 0x61, 0x6e, 0x74, 0x20, 0x66, 0x6f, 0x72, 0x20,
     0x6e, 0x6f, 0x74, 0x68, 0x69, 0x6e, 0x67, 0x3f] [0x4a, 0x65, 0x66, 0x65]
    = [0x5b, 0xdc, 0xc1, 0x46, 0xbf, 0x60, 0x75, 0x4e, 0x6a, 0x04, 0x24, 0x26, 0x08, 0x95, 0x75, 0xc7,
       0x5a, 0x00, 0x3f, 0x08, 0x9d, 0x27, 0x39, 0x83, 0x9d, 0xec, 0x58, 0xb9, 0x64, 0xec, 0x38, 0x43] := by decide +kernel

/-- RFC 6070 test case 2 (PBKDF2-HMAC-SHA1, "password", "salt", two iterations, 20 bytes). -/
example : pbkdKey (shaAlgorithm Sha.Build.portable Sha.sha160) true 20 20 [0x70, 0x61, 0x73, 0x73, 0x77, 0x6f, 0x72, 0x64]
    [0x73, 0x61, 0x6c, 0x74] 2
    = [0xea, 0x6c, 0x01, 0x4d, 0xc7, 0x2d, 0x6f, 0x8c, 0xcd, 0x1e, 0xd9, 0x2a, 0xce, 0x1d, 0x41, 0xf0, 0xd8, 0xde, 0x89, 0x57] := by
  decide +kernel

/-- RFC 5869 test case 1: 42 bytes from three inputs, two blocks. -/
example : (hkdfExpand (shaAlgorithm Sha.Build.portable Sha.sha256) true 3 32 42
    (hkdfExtract (shaAlgorithm Sha.Build.portable Sha.sha256) true (List.replicate 22 0x0b)
      [0x00, 0x01, 0x02, 0x03, 0x04, 0x05, 0x06, 0x07, 0x08, 0x09, 0x0a, 0x0b, 0x0c])
    [0xf0, 0xf1, 0xf2, 0xf3, 0xf4, 0xf5, 0xf6, 0xf7, 0xf8, 0xf9])
    = some [0x3c, 0xb2, 0x5f, 0x25, 0xfa, 0xac, 0xd5, 0x7a, 0x90, 0x43, 0x4f, 0x64, 0xd0, 0x36, 0x2f, 0x2a, 0x2d, 0x2d, 0x0a, 0x90,
       0xcf, 0x1a, 0x5a, 0x4c, 0x5d, 0xb0, 0x2d, 0x56, 0xec, 0xc4, 0xc5, 0xbf, 0x34, 0x00, 0x72, 0x08, 0xd5, 0xb8, 0x87, 0x18,
       0x58, 0x65] := by decide +kernel

end Verif.Hmac
