import Verif.Model.Lanes
import Verif.Lemmas.Merkle
import Verif.Props.Native
/-!
# A lane of the vector computation is the scalar computation
-/
namespace Verif.Lanes
open Verif Verif.Sha Verif.Native
open Verif.Spec.Hash (beWord)

variable {L : Nat}

/-- Lane `i` of every register. -/
def lane (i : Fin L) (l : List (Reg L)) : List (BitVec 32) := l.map fun x => x i

theorem rd_lane (i : Fin L) (l : List (Reg L)) (k : Nat) : rd (lane i l) k = get (Ops.vector L) l k i := by
  unfold rd lane get
  rw [List.getD_eq_getElem?_getD, List.getD_eq_getElem?_getD, List.getElem?_map]
  cases l[k]? <;> rfl

theorem lane_length (i : Fin L) (l : List (Reg L)) : (lane i l).length = l.length := by simp [lane]

theorem lane_set (i : Fin L) (l : List (Reg L)) (k : Nat) (x : Reg L) : lane i (l.set k x) = (lane i l).set k (x i) := by
  simp [lane, List.map_set]

theorem lane_setMany (i : Fin L) (l xs : List (Reg L)) (k : Nat) : lane i (setMany l k xs) = setMany (lane i l) k (lane i xs) := by
  induction xs generalizing l k with
  | nil => rfl
  | cons x xs ih =>
    show lane i (setMany (l.set k x) (k + 1) xs) = setMany ((lane i l).set k (x i)) (k + 1) (lane i xs)
    rw [ih, lane_set]

theorem prepare_lane (i : Fin L) (l : List (Reg L)) (r : Nat) : lane i (prepare (Ops.vector L) l r) = Sha.prepare Sha.sha256 (lane i l) r := by
  unfold prepare Sha.prepare
  rw [lane_set, if_neg (by decide)]
  simp only [rd_lane]
  rfl

theorem konstant_lane (i : Fin L) (l : List (Reg L)) (r : Nat) : lane i (konstant1 (Ops.vector L) l r) = Sha.konstant1 Sha.sha256 (lane i l) r := by
  unfold konstant1 Sha.konstant1
  rw [lane_set, rd_lane]
  rfl

theorem foldl_lane {β : Type} (i : Fin L) (f : List (Reg L) → β → List (Reg L)) (g : List (BitVec 32) → β → List (BitVec 32))
    (h : ∀ l x, lane i (f l x) = g (lane i l) x) (xs : List β) (l : List (Reg L)) : lane i (xs.foldl f l) = xs.foldl g (lane i l) := by
  induction xs generalizing l with
  | nil => rfl
  | cons x xs ih => rw [List.foldl_cons, List.foldl_cons, ih, h]

theorem schedule_lane (i : Fin L) (l : List (Reg L)) : lane i (schedule (Ops.vector L) l) = scheduleScalar Sha.sha256 (lane i l) := by
  unfold schedule scheduleScalar konstant
  rw [foldl_lane i _ _ (konstant_lane i), foldl_lane i _ _ (prepare_lane i)]
  rfl

theorem round_lane (i : Fin L) (wk l : List (Reg L)) (r : Nat) :
    lane i (round (Ops.vector L) wk l r) = Sha.round Sha.sha256 (lane i wk) (lane i l) r := by
  unfold round Sha.round
  rw [if_neg (by decide)]
  simp only [lane_set, rd_lane]
  rfl

theorem summarize_lane (i : Fin L) (inn out : List (Reg L)) (k : Nat) :
    lane i (summarize1 (Ops.vector L) inn out k) = (lane i out).set k (rd (lane i out) k + rd (lane i inn) k) := by
  unfold summarize1
  simp only [lane_set, rd_lane]
  rfl

theorem compress_lane (i : Fin L) (s wk : List (Reg L)) : lane i (compress (Ops.vector L) s wk) = Sha.compress Sha.sha256 (lane i s) (lane i wk) := by
  unfold compress Sha.compress summarize
  have g := foldl_lane i (summarize1 (Ops.vector L) s) (fun o k => o.set k (rd o k + rd (lane i s) k)) (summarize_lane i s)
  rw [g, g, foldl_lane i _ _ (round_lane i wk)]
  dsimp only
  rw [if_pos (by decide)]
  rfl

theorem xinput_lane (i : Fin L) (l : List (Reg L)) (blocks : Fin L → Bytes) (h : (blocks i).length = 64) :
    lane i (xinput l blocks) = input (lane i l) (blocks i) := by
  unfold xinput input
  rw [lane_setMany]
  congr 1
  unfold lane beWords
  rw [List.map_map]
  refine List.map_congr_left fun k hk => ?_
  have hk' : k < 16 := List.mem_range.1 hk
  show bswap (leWord (blocks i) k) = _
  unfold leWord
  rw [bswap_le _ (by simp; omega), Nat.mul_comm 4 k]
  rfl

theorem packState_lane (i : Fin L) : lane i (packState L Sha.sha256.H) = Sha.sha256.H := by
  unfold lane packState broadcast
  rw [List.map_map]
  rfl

theorem schedule1_lane (i : Fin L) : lane i (schedule1 L) = Sha.schedule1 Sha.sha256 := by
  unfold lane schedule1 broadcast
  rw [List.map_map]
  have hl : (Sha.schedule1 Sha.sha256).length = 64 := by
    rw [Sha.schedule1, scheduledPad, scheduleScalar_length]
    simp [buffer0]
    rfl
  unfold Sha.schedule1 at hl ⊢
  generalize scheduledPad Sha.sha256 1 = l at hl
  apply List.ext_getElem
  · simp [hl]
  · intro n h1 h2
    simp [rd, List.getD_eq_getElem?_getD, List.getElem?_eq_getElem h2]

theorem inject_lane (i : Fin L) (l s : List (Reg L)) : lane i (injectLeftHalf l s) = Sha.injectLeftHalf (lane i l) (lane i s) := by
  unfold injectLeftHalf Sha.injectLeftHalf
  rw [lane_setMany]
  congr 1
  unfold lane
  rw [List.map_map]
  refine List.map_congr_left fun k _ => ?_
  exact (rd_lane i s k).symm

theorem padHalf_lane (i : Fin L) (l : List (Reg L)) : lane i (padHalf l) = Sha.padHalf (lane i l) := by
  unfold padHalf Sha.padHalf
  rw [lane_setMany]
  rfl

theorem unpack_lane (i : Fin L) (s : List (Reg L)) (h : s.length = 8) : unpack s i = output Sha.sha256 (lane i s) := by
  have hl : (lane i s).length = 8 := by rw [lane_length, h]
  have e : lane i s = (List.range 8).map (rd (lane i s)) := by
    apply List.ext_getElem
    · simp [hl]
    · intro n h1 h2
      simp [rd, List.getD_eq_getElem?_getD, List.getElem?_eq_getElem h1]
  have o : (lane i s).flatMap (fun x => beBytes (wordBytes 32) x.toNat) = unpack s i := by
    rw [e, List.flatMap_map]
    unfold unpack
    congr 1
    funext k
    rw [bswap_be, rd_lane]
    rfl
  unfold output
  rw [o, List.take_of_length_le]
  unfold unpack
  rw [List.length_flatMap]
  simp
  decide

end Verif.Lanes
