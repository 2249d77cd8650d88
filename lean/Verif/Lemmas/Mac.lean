import Verif.Lemmas.Accumulator
import Verif.Model.HashFunctions
import Verif.Spec.Mac
/-!
# HMAC over a lawful accumulator
-/
namespace Verif.Hmac
open Verif.Hash Verif.Sha

variable {σ : Type} {A : Algorithm σ} {f : σ → Bytes → σ} {V : σ → Prop}

/-- The first bytes of a filled pad combined with the key: the zero extended key combined with the pad. -/
theorem xorN_eq (B : Nat) (x : UInt8) (key : Bytes) (h : key.length ≤ B) :
    xorN (List.replicate B x) key = Spec.Mac.xor (key ++ List.replicate (B - key.length) 0) (List.replicate B x) := by
  unfold xorN
  rw [setMany_eq _ _ _ (by simp; omega)]
  apply List.ext_getElem
  · simp [Spec.Mac.xor]
    omega
  · intro i h1 h2
    simp only [List.take_zero, List.nil_append, Nat.zero_add] at h1 ⊢
    simp only [Spec.Mac.xor, List.getElem_zipWith, List.getElem_append, List.getElem_replicate, List.length_zipWith,
      List.length_take, List.length_replicate, List.getElem_take, List.getElem_drop]
    by_cases hk : i < key.length
    · rw [dif_pos (by omega), dif_pos hk, UInt8.xor_comm]
    · rw [dif_neg (by omega), dif_neg hk]
      simp

/-- The state of an hmac that has been given `m` after construction with a block key `k`. -/
def Holds (A : Algorithm σ) (f : σ → Bytes → σ) (V : σ → Prop) (h : State σ) (k m : Bytes) : Prop :=
  Inv A f V A.H h.inner (Spec.Mac.xor k (List.replicate A.blockSize 0x36) ++ m) ∧
  Inv A f V A.H h.outer (Spec.Mac.xor k (List.replicate A.blockSize 0x5c))

theorem xor_length (a b : Bytes) (h : a.length = b.length) : (Spec.Mac.xor a b).length = b.length := by
  simp [Spec.Mac.xor, h]

theorem xorKey_holds (hA : Lawful A f V) (checked : Bool) (key : Bytes) (h : key.length ≤ A.blockSize) :
    Holds A f V (xorKey A checked key) (key ++ List.replicate (A.blockSize - key.length) 0) [] := by
  have hs := hA.small
  have hlim := limit_bound hA
  have hx : ∀ x : UInt8, (Spec.Mac.xor (key ++ List.replicate (A.blockSize - key.length) 0) (List.replicate A.blockSize x)).length
      = A.blockSize := by
    intro x
    rw [xor_length _ _ (by simp; omega), List.length_replicate]
  unfold xorKey
  refine ⟨?_, ?_⟩
  · rw [List.append_nil, xorN_eq _ _ _ h]
    have := (write_inv (checked := checked) hA hA.vH (init_inv' hA)
      (d := Spec.Mac.xor (key ++ List.replicate (A.blockSize - key.length) 0) (List.replicate A.blockSize 0x36))
      (by rw [List.nil_append, hx]; omega) (fun _ => by rw [List.nil_append, hx]; omega)).2
    rwa [List.nil_append] at this
  · rw [xorN_eq _ 0x5c _ h]
    have := (write_inv (checked := checked) hA hA.vH (init_inv' hA)
      (d := Spec.Mac.xor (key ++ List.replicate (A.blockSize - key.length) 0) (List.replicate A.blockSize 0x5c))
      (by rw [List.nil_append, hx]; omega) (fun _ => by rw [List.nil_append, hx]; omega)).2
    rwa [List.nil_append] at this

theorem blockKey_length (H : Bytes → Bytes) (B : Nat) (key : Bytes) (hH : ∀ m, (H m).length ≤ B) :
    (Spec.Mac.blockKey H B key).length = B := by
  unfold Spec.Mac.blockKey
  by_cases h : key.length ≤ B
  · simp [h]
  · simp only [if_neg h, List.length_append, List.length_replicate]
    have := hH key
    omega

theorem create_holds (hA : Lawful A f V) (hn : ∀ m, (digestOf A f m).length ≤ A.blockSize) (checked : Bool) (key : Bytes)
    (hk : key.length + 512 ≤ 2 ^ 61) :
    Holds A f V (create A checked key) (Spec.Mac.blockKey (digestOf A f) A.blockSize key) [] := by
  have hs := hA.small
  unfold create Spec.Mac.blockKey
  by_cases h : key.length ≤ A.blockSize
  · simp only [if_pos h]
    exact xorKey_holds hA checked key h
  · simp only [if_neg h]
    rw [hash_digest hA checked key (by omega)]
    exact xorKey_holds hA checked _ (hn key)

theorem write_holds (hA : Lawful A f V) (checked : Bool) {h : State σ} {k m : Bytes} (hi : Holds A f V h k m)
    (hk : k.length = A.blockSize) (d : Bytes) (hl : m.length + d.length + 512 ≤ 2 ^ 61) :
    Holds A f V (write A checked h d) k (m ++ d) := by
  have hs := hA.small
  have hlim := limit_bound hA
  refine ⟨?_, hi.2⟩
  have hx := xor_length k (List.replicate A.blockSize 0x36) (by simp [hk])
  rw [List.length_replicate] at hx
  rw [← List.append_assoc]
  exact (write_inv hA hA.vH hi.1 (by simp only [List.length_append, hx]; omega)
    (fun _ => by simp only [List.length_append, hx]; omega)).2

theorem flush_holds (hA : Lawful A f V) (hn : ∀ m, (digestOf A f m).length ≤ A.blockSize) (checked : Bool) {h : State σ} {k m : Bytes}
    (hi : Holds A f V h k m) (hk : k.length = A.blockSize) (hl : m.length + 512 ≤ 2 ^ 61) :
    flush A checked h = digestOf A f (Spec.Mac.xor k (List.replicate A.blockSize 0x5c) ++
      digestOf A f (Spec.Mac.xor k (List.replicate A.blockSize 0x36) ++ m)) := by
  have hs := hA.small
  have hlim := limit_bound hA
  have hx : ∀ x : UInt8, (Spec.Mac.xor k (List.replicate A.blockSize x)).length = A.blockSize := by
    intro x
    rw [xor_length _ _ (by simp [hk]), List.length_replicate]
  unfold flush
  rw [flush_digest hA hi.1 (by simp only [List.length_append, hx]; omega)]
  have hd := hn (Spec.Mac.xor k (List.replicate A.blockSize 0x36) ++ m)
  have hw := (write_inv (checked := checked) hA hA.vH hi.2
    (d := digestOf A f (Spec.Mac.xor k (List.replicate A.blockSize 0x36) ++ m))
    (by simp only [List.length_append, hx]; omega) (fun _ => by simp only [List.length_append, hx]; omega)).2
  exact flush_digest hA hw (by simp only [List.length_append, hx]; omega)

theorem writes_holds (hA : Lawful A f V) (checked : Bool) {k : Bytes} (hk : k.length = A.blockSize) (ds : List Bytes) :
    ∀ {h : State σ} {m : Bytes}, Holds A f V h k m → m.length + ds.flatten.length + 512 ≤ 2 ^ 61 →
    Holds A f V (ds.foldl (write A checked) h) k (m ++ ds.flatten) := by
  induction ds with
  | nil => intro h m hi _; simpa using hi
  | cons d ds ih =>
    intro h m hi hl
    simp only [List.flatten_cons, List.length_append] at hl
    rw [List.foldl_cons, List.flatten_cons, ← List.append_assoc]
    exact ih (write_holds hA checked hi hk d (by omega)) (by simp only [List.length_append]; omega)

end Verif.Hmac
