import Verif.Model.EcOperators
import Verif.Props.HdKeys
import Mathlib.Algebra.Module.NatInt
import Mathlib.Algebra.BigOperators.Group.List.Basic
/-!
# C65: the scalar and point operators are the arithmetic of the group
-/
namespace Verif.Ec
open Verif Verif.Hd
variable {P : Type} [AddCommGroup P] [DecidableEq P] {C : Curve P}

/-- The 32 bytes are the number `k` below the order. -/
def IsScalar (C : Curve P) (b : Bytes) (k : Nat) : Prop := k < C.order ∧ b = beBytes 32 k
/-- The 33 bytes are the point, zeros for the zero of the group. -/
def IsPoint (C : Curve P) (b : Bytes) (p : P) : Prop := (p = 0 ∧ b = Point.none) ∨ (p ≠ 0 ∧ b = C.compressed p)

theorem scalar_beNat {b : Bytes} {k : Nat} (h : IsScalar C b k) : beNat b = k := by
  rw [h.2]; exact Der.beNat_beBytes (lt256 C h.1)

theorem scalar_zero : IsScalar C Scalar.zero 0 := ⟨C.prime.pos, by decide⟩

theorem scalar_verify {b : Bytes} {k : Nat} (h : IsScalar C b k) : verifySecret C b = true ↔ k ≠ 0 := by
  rw [verify_iff, scalar_beNat h]
  have := h.1
  omega

theorem neg_isScalar {b : Bytes} {k : Nat} (h : IsScalar C b k) : IsScalar C (Scalar.neg C b) ((C.order - k) % C.order) := by
  unfold Scalar.neg negSecret
  by_cases hk : k = 0
  · rw [if_neg (by rw [scalar_verify h]; simpa using hk)]
    subst hk
    simpa using scalar_zero
  · rw [if_pos ((scalar_verify h).2 hk)]
    have h1 := h.1
    have e : (C.order - k) % C.order = C.order - k := Nat.mod_eq_of_lt (by omega)
    rw [scalar_beNat h, e]
    exact ⟨by omega, rfl⟩

/-- A sum with a left operand other than zero. -/
theorem add_isScalar {a c : Bytes} {j k : Nat} (ha : IsScalar C a j) (hc : IsScalar C c k) (hj : j ≠ 0) :
    IsScalar C (Scalar.add C a c) ((j + k) % C.order) := by
  unfold Scalar.add addSecret
  rw [scalar_beNat ha, scalar_beNat hc]
  have hv := (scalar_verify ha).2 hj
  have hk := hc.1
  by_cases hz : (j + k) % C.order = 0
  · rw [if_neg (fun h => h.2.2 hz), hz]; exact scalar_zero
  · rw [if_pos ⟨hv, hk, hz⟩]
    exact ⟨Nat.mod_lt _ C.prime.pos, rfl⟩

theorem mul_isScalar {a c : Bytes} {j k : Nat} (ha : IsScalar C a j) (hc : IsScalar C c k) :
    IsScalar C (Scalar.mul C a c) ((j * k) % C.order) := by
  unfold Scalar.mul mulSecret
  rw [scalar_beNat ha, scalar_beNat hc]
  by_cases hj : j = 0
  · have : verifySecret C a = false := Bool.eq_false_iff.2 fun h => (scalar_verify ha).1 h hj
    subst hj
    rw [this]
    simpa using scalar_zero
  by_cases hk : k = 0
  · have : verifySecret C c = false := Bool.eq_false_iff.2 fun h => (scalar_verify hc).1 h hk
    subst hk
    rw [this]
    simpa using scalar_zero
  rw [(scalar_verify ha).2 hj, (scalar_verify hc).2 hk]
  exact ⟨Nat.mod_lt _ C.prime.pos, rfl⟩

/-- **C65** The operators on scalars are arithmetic modulo the order: negation, product and conversion for all scalars and 64 bit integers,
sum and difference for every left operand but zero. -/
theorem C65_scalar_partial {a c : Bytes} {j k : Nat} (ha : IsScalar C a j) (hc : IsScalar C c k) :
    (∃ n, IsScalar C (Scalar.neg C a) n ∧ (n + j) % C.order = 0) ∧
    IsScalar C (Scalar.mul C a c) (j * k % C.order) ∧
    (j ≠ 0 → IsScalar C (Scalar.add C a c) ((j + k) % C.order)) ∧
    (j ≠ 0 → ∃ n, IsScalar C (Scalar.sub C a c) n ∧ (n + k) % C.order = j) ∧
    (Scalar.nonzero a = true ↔ j ≠ 0) := by
  refine ⟨⟨_, neg_isScalar ha, ?_⟩, mul_isScalar ha hc, add_isScalar ha hc, fun hj => ⟨_, add_isScalar ha (neg_isScalar hc) hj, ?_⟩, ?_⟩
  · rw [Nat.mod_add_mod]
    have := ha.1
    rw [show C.order - j + j = C.order by omega, Nat.mod_self]
  · rw [Nat.mod_add_mod, Nat.add_assoc, Nat.add_comm _ k, ← Nat.add_assoc, Nat.add_mod_mod, Nat.add_assoc]
    have := hc.1
    rw [show k + (C.order - k) = C.order by omega, Nat.add_mod_right, Nat.mod_eq_of_lt ha.1]
  · have h := scalar_beNat ha
    unfold Scalar.nonzero
    rw [bne_iff_ne]
    refine not_congr ⟨fun e => ?_, fun e => ?_⟩
    · rw [e] at h; rw [← h]; decide
    · rw [ha.2, e]; decide

/-- Not arithmetic: adding to zero, or subtracting from it, gives zero. -/
theorem C65_zero_counterexample (c : Bytes) : Scalar.add C Scalar.zero c = Scalar.zero ∧ Scalar.sub C Scalar.zero c = Scalar.zero := by
  have h : ∀ d, Scalar.add C Scalar.zero d = Scalar.zero := by
    intro d
    unfold Scalar.add addSecret
    rw [if_neg (fun h => (scalar_verify (scalar_zero (C := C))).1 h.1 rfl)]
    rfl
  exact ⟨h c, h _⟩

/-- **C65** The scalar of a 64 bit integer is that integer modulo the order (for an order above 2^64). -/
theorem C65_integer (hC : 2 ^ 64 ≤ C.order) (v : Int) (h1 : -(2 ^ 63) ≤ v) (h2 : v < 2 ^ 63) :
    ∃ n : Nat, IsScalar C (Scalar.ofInt C v) n ∧ (n : Int) % C.order = v % C.order := by
  have hz : ∀ m : Nat, m < 2 ^ 64 → List.replicate 24 0 ++ beBytes 8 m = beBytes 32 m := by
    intro m hm
    have := Der.beNat_inj (a := List.replicate 24 0 ++ beBytes 8 m) (b := beBytes 32 m) (by simp) (by
      rw [Der.beNat_zeros, Der.beNat_beBytes (by omega), Der.beNat_beBytes (by
        have : (2 : Nat) ^ 64 ≤ 256 ^ 32 := by decide
        omega)])
    exact this
  unfold Scalar.ofInt
  by_cases h0 : v = 0
  · rw [if_pos h0, h0]; exact ⟨0, scalar_zero, rfl⟩
  rw [if_neg h0]
  dsimp only
  have hm : v.natAbs < 2 ^ 64 := by omega
  rw [hz _ hm]
  have hs : IsScalar C (beBytes 32 v.natAbs) v.natAbs := ⟨by omega, rfl⟩
  by_cases hp : 0 < v
  · rw [if_pos hp]
    exact ⟨_, hs, by congr 1; omega⟩
  · rw [if_neg hp]
    refine ⟨_, neg_isScalar hs, ?_⟩
    have := hs.1
    have e : (C.order - v.natAbs) % C.order = C.order - v.natAbs := Nat.mod_eq_of_lt (by omega)
    rw [e, Nat.cast_sub (by omega)]
    rw [show ((C.order : Int) - (v.natAbs : Int)) = v + C.order by omega, Int.add_emod_right]

/-! ## Points -/

theorem compressed_valid (C : Curve P) (p : P) : Point.valid (C.compressed p) = true := by
  obtain ⟨s, x, e, hs, -⟩ := C.compressed_form p
  rw [e]
  unfold Point.valid
  rcases hs with rfl | rfl <;> simp

theorem point_valid {b : Bytes} {p : P} (h : IsPoint C b p) : Point.valid b = true ↔ p ≠ 0 := by
  rcases h with ⟨h1, rfl⟩ | ⟨h1, rfl⟩
  · exact ⟨fun h => absurd h (by decide), fun h => absurd h1 h⟩
  · exact ⟨fun _ => h1, fun _ => compressed_valid C p⟩

theorem order_smul (C : Curve P) (p : P) : C.order • p = 0 := by
  obtain ⟨k, rfl⟩ := C.generated p
  rw [smul_smul, C.cyclic]; exact Dvd.intro _ rfl

theorem smul_zero_of {C : Curve P} {k : Nat} {p : P} (hk : k < C.order) (h : k • p = 0) : k = 0 ∨ p = 0 := by
  obtain ⟨j, rfl⟩ := C.generated p
  rw [smul_smul, C.cyclic, C.prime.dvd_mul] at h
  rcases h with h | h
  · exact .inl (Nat.eq_zero_of_dvd_of_lt h hk)
  · exact .inr ((C.cyclic j).2 h)

/-- **C65** The operators on points are those of the group: negation and multiplication for all points, sum and difference for points other than zero. -/
theorem C65_point_partial {a c s : Bytes} {p q : P} {k : Nat} (ha : IsPoint C a p) (hc : IsPoint C c q) (hs : IsScalar C s k) :
    IsPoint C (Point.neg C a) (-p) ∧ IsPoint C (Point.mul C a s) (k • p) ∧
    (p ≠ 0 → q ≠ 0 → IsPoint C (Point.add C a c) (p + q) ∧ IsPoint C (Point.sub C a c) (p - q)) ∧
    (p ≠ 0 → Point.addTo C a c = Point.add C a c ∧ Point.subFrom C a c = Point.sub C a c) ∧ IsPoint C (Point.mulBy C a s) (k • p) ∧
    (Point.valid a = true ↔ p ≠ 0) := by
  have hn : IsPoint C (Point.neg C a) (-p) := by
    unfold Point.neg
    by_cases hp : p = 0
    · have : Point.valid a = false := Bool.eq_false_iff.2 fun h => (point_valid ha).1 h hp
      rw [this, hp]; exact .inl ⟨neg_zero, rfl⟩
    · rw [(point_valid ha).2 hp]
      rcases ha with ⟨h, -⟩ | ⟨-, rfl⟩
      · exact absurd h hp
      · unfold negPoint
        rw [C.parse_compressed p hp]
        exact .inr ⟨neg_ne_zero.2 hp, rfl⟩
  have hadd : ∀ {a c : Bytes} {p q : P}, IsPoint C a p → IsPoint C c q → p ≠ 0 → q ≠ 0 → IsPoint C (Point.add C a c) (p + q) := by
    intro a c p q ha hc hp hq
    unfold Point.add
    rw [(point_valid ha).2 hp, (point_valid hc).2 hq]
    rcases ha with ⟨h, -⟩ | ⟨-, rfl⟩
    · exact absurd h hp
    rcases hc with ⟨h, -⟩ | ⟨-, rfl⟩
    · exact absurd h hq
    unfold addPoints
    rw [C.parse_compressed p hp, C.parse_compressed q hq]
    simp only [Bool.not_true, Bool.or_self, Bool.false_eq_true, if_false]
    by_cases hz : p + q = 0
    · rw [if_neg (not_not.2 hz)]; exact .inl ⟨hz, rfl⟩
    · rw [if_pos hz]; exact .inr ⟨hz, rfl⟩
  have hneg : ∀ {c : Bytes} {q : P}, IsPoint C c q → q ≠ 0 → IsPoint C (Point.neg C c) (-q) := by
    intro c q hc hq
    unfold Point.neg
    rw [(point_valid hc).2 hq]
    rcases hc with ⟨h, -⟩ | ⟨-, rfl⟩
    · exact absurd h hq
    · unfold negPoint
      rw [C.parse_compressed q hq]
      exact .inr ⟨neg_ne_zero.2 hq, rfl⟩
  have hmul : IsPoint C (Point.mul C a s) (k • p) := by
    unfold Point.mul
    by_cases hp : p = 0
    · have : Point.valid a = false := Bool.eq_false_iff.2 fun h => (point_valid ha).1 h hp
      rw [this, hp]; exact .inl ⟨smul_zero k, rfl⟩
    by_cases hk : k = 0
    · have : Scalar.nonzero s = false := Bool.eq_false_iff.2 fun h => (C65_scalar_partial hs hs).2.2.2.2.1 h hk
      rw [this, hk]; simp only [Bool.not_false, Bool.or_true, if_true]; exact .inl ⟨zero_smul _ _, rfl⟩
    rw [(point_valid ha).2 hp, (C65_scalar_partial hs hs).2.2.2.2.2 hk]
    rcases ha with ⟨h, -⟩ | ⟨-, rfl⟩
    · exact absurd h hp
    unfold mulPoint
    rw [C.parse_compressed p hp]
    dsimp only
    rw [if_pos ((scalar_verify hs).2 hk), scalar_beNat hs]
    refine .inr ⟨fun h => ?_, rfl⟩
    rcases smul_zero_of hs.1 h with h | h
    · exact hk h
    · exact hp h
  refine ⟨hn, hmul, fun hp hq => ⟨hadd ha hc hp hq, ?_⟩, fun hp => ?_, ?_, point_valid ha⟩
  · unfold Point.sub
    rw [(point_valid ha).2 hp, (point_valid hc).2 hq, sub_eq_add_neg]
    exact hadd ha (hneg hc hq) hp (neg_ne_zero.2 hq)
  · unfold Point.addTo Point.subFrom
    rw [(point_valid ha).2 hp]
    exact ⟨rfl, rfl⟩
  · unfold Point.mulBy
    by_cases hp : p = 0
    · have : Point.valid a = false := Bool.eq_false_iff.2 fun h => (point_valid ha).1 h hp
      rw [this]
      rcases ha with ⟨-, rfl⟩ | ⟨h, -⟩
      · rw [hp]; exact .inl ⟨smul_zero k, rfl⟩
      · exact absurd hp h
    · rw [(point_valid ha).2 hp]; exact hmul

/-- Not the group: the invalid point, which stands for zero in results, is no operand of a sum. -/
theorem C65_infinity_counterexample (p : P) (hp : p ≠ 0) : Point.add C Point.none (C.compressed p) = Point.none ∧
    Point.add C (C.compressed p) Point.none = Point.none ∧ Point.none ≠ C.compressed p := by
  have h0 : Point.valid Point.none = false := by decide
  refine ⟨by unfold Point.add; rw [h0]; rfl, by unfold Point.add; rw [h0]; simp, fun e => ?_⟩
  have := compressed_valid C p
  rw [← e, h0] at this; cases this

theorem parses (ps : List P) (h : ∀ p ∈ ps, p ≠ 0) : (ps.map C.compressed).mapM C.parse = some ps := by
  induction ps with
  | nil => rfl
  | cons p ps ih =>
    rw [List.map_cons, List.mapM_cons, C.parse_compressed p (h p (by simp)), ih (fun q hq => h q (by simp [hq]))]
    rfl

/-- **C65** `ec_sum` of points is their sum in the group; it fails exactly if there are none or the sum is zero. -/
theorem C65_sum (ps : List P) (h : ∀ p ∈ ps, p ≠ 0) :
    sumPoints C (ps.map C.compressed) = if ps.sum = 0 then Option.none else some (C.compressed ps.sum) := by
  unfold sumPoints
  by_cases he : ps = []
  · subst he; simp
  · rw [if_neg (by simpa using he), parses ps h]
    dsimp only
    by_cases hz : ps.sum = 0 <;> simp [hz]

/-- The laws that follow, for operands within the contract: a product distributes, and scalars act on points. -/
theorem C65_action {a c s : Bytes} {j k : Nat} {p : P} (ha : IsScalar C a j) (hc : IsScalar C c k) (hs : IsPoint C s p) (hj : j ≠ 0) (hk : k ≠ 0) :
    Point.mul C s (Scalar.mul C a c) = Point.mul C (Point.mul C s a) c ∧
    (p ≠ 0 → Point.mul C s (Scalar.add C a c) = Point.add C (Point.mul C s a) (Point.mul C s c)) := by
  have uniq : ∀ {x y : Bytes} {q : P}, IsPoint C x q → IsPoint C y q → x = y := by
    rintro x y q (⟨h, rfl⟩ | ⟨h, rfl⟩) (⟨g, rfl⟩ | ⟨g, rfl⟩)
    · rfl
    · exact absurd h g
    · exact absurd g h
    · rfl
  have mul : ∀ {x y : Bytes} {q : P} {n : Nat}, IsPoint C x q → IsScalar C y n → IsPoint C (Point.mul C x y) (n • q) :=
    fun hx hy => (C65_point_partial hx hx hy).2.1
  have mods : ∀ n : Nat, (n % C.order) • p = n • p := by
    intro n
    conv_rhs => rw [← Nat.div_add_mod n C.order, add_smul, Nat.mul_comm, mul_smul, order_smul, smul_zero, zero_add]
  refine ⟨?_, fun hp => ?_⟩
  · refine uniq (mul hs (mul_isScalar ha hc)) ?_
    rw [mods, Nat.mul_comm, mul_smul]
    exact mul (mul hs ha) hc
  · refine uniq (mul hs (add_isScalar ha hc hj)) ?_
    rw [mods, add_smul]
    exact ((C65_point_partial (mul hs ha) (mul hs hc) ha).2.2.1 (fun e => (smul_zero_of ha.1 e).elim hj hp)
      (fun e => (smul_zero_of hc.1 e).elim hk hp)).1

/-- The hypotheses are met: five times three in the toy group. -/
example : ∃ a c, IsScalar Toy.curve a 5 ∧ IsScalar Toy.curve c 3 ∧ IsScalar Toy.curve (Scalar.mul Toy.curve a c) 15 ∧
    IsPoint Toy.curve (Toy.curve.compressed Toy.curve.generator) Toy.curve.generator := by
  have h5 : IsScalar Toy.curve (beBytes 32 5) 5 := ⟨by show 5 < Toy.prime; decide, rfl⟩
  have h3 : IsScalar Toy.curve (beBytes 32 3) 3 := ⟨by show 3 < Toy.prime; decide, rfl⟩
  refine ⟨_, _, h5, h3, ?_, .inr ⟨fun h => ?_, rfl⟩⟩
  · have := mul_isScalar h5 h3
    rwa [show 5 * 3 % Toy.curve.order = 15 from by show 15 % Toy.prime = 15; decide] at this
  · have := (Toy.curve.cyclic 1).1 (by rw [one_smul]; exact h)
    exact absurd (Nat.le_of_dvd (by decide) this) (by show ¬ Toy.prime ≤ 1; decide)

end Verif.Ec
