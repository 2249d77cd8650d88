import Verif.Lemmas.View3
/-! Helper lemmas for the block and transaction views: accessors. -/
namespace Verif.Views
open Verif Validate Merkle Verif.Spec

def bodyData (t : Tx) : Bytes := writeVariable t.inputs.length ++ (insData t ++ (writeVariable t.outputs.length ++ outsData t))
def marksData (t : Tx) : Bytes := if t.segregated then [0x00, 0x01] else []

theorem marksData_length (t : Tx) : (marksData t).length = marks t := by
  unfold marksData marks; cases t.segregated <;> rfl

theorem full_eq (t : Tx) (tail : Bytes) : t.toData true ++ tail =
    writeU32 t.version ++ (marksData t ++ (bodyData t ++ (witsData t ++ (writeU32 t.locktime ++ tail)))) := by
  unfold Tx.toData
  simp [marksData, bodyData, witsData, insData, outsData]

theorem stripped_eq (t : Tx) : t.toData false = writeU32 t.version ++ (bodyData t ++ writeU32 t.locktime) := by
  unfold Tx.toData
  simp [bodyData, insData, outsData]

theorem body_length (t : Tx) : (bodyData t).length = variableSize t.inputs.length + (insData t).length +
    variableSize t.outputs.length + (outsData t).length := by
  simp [bodyData, writeVariable_length]; omega

theorem take_of {a b c : Bytes} {n : Nat} (e : c = a ++ b) (h : n = a.length) : c.take n = a := by
  rw [e, h]; exact List.take_left' rfl
theorem drop_of {a b c : Bytes} {n : Nat} (e : c = a ++ b) (h : n = a.length) : c.drop n = b := by
  rw [e, h]; exact List.drop_left' rfl

theorem unsegregated_data {t : Tx} (h : t.segregated = false) : t.toData true = t.toData false := by
  unfold Tx.toData; simp [h]

section
variable (t : Tx) (tail : Bytes)
local notation "B" => t.toData true ++ tail

theorem at_version : (B).take 4 = writeU32 t.version := take_of (full_eq t tail) (by simp)
theorem at_body : (B).drop (4 + marks t) = bodyData t ++ (witsData t ++ (writeU32 t.locktime ++ tail)) :=
  drop_of (a := writeU32 t.version ++ marksData t) (by rw [full_eq]; simp) (by simp [marksData_length])
theorem at_lock : ((B).drop ((t.toData true).length - 4)).take 4 = writeU32 t.locktime := by
  have h := full_length t
  have hb := body_length t
  have hm := marksData_length t
  refine take_of (drop_of (a := writeU32 t.version ++ (marksData t ++ (bodyData t ++ witsData t))) (b := writeU32 t.locktime ++ tail)
    (by rw [full_eq]; simp only [List.append_assoc]) ?_) (by simp)
  simp only [List.length_append, writeU32_length]
  omega
theorem at_wits : (B).drop ((t.toData true).length - ((witsData t).length + 4)) = witsData t ++ (writeU32 t.locktime ++ tail) := by
  have h := full_length t
  have hb := body_length t
  have hm := marksData_length t
  refine drop_of (a := writeU32 t.version ++ (marksData t ++ bodyData t)) (by rw [full_eq]; simp only [List.append_assoc]) ?_
  simp only [List.length_append, writeU32_length]
  omega
theorem at_full : (B).take (t.toData true).length = t.toData true := List.take_left' rfl
end

theorem wits_pos {t : Tx} (h : t.segregated = true) (hn : t.inputs ≠ []) : (witsData t).length ≠ 0 := by
  unfold witsData
  rw [if_pos h]
  cases hi : t.inputs with
  | nil => exact absurd hi hn
  | cons i is =>
    have : (writeVariable i.witness.stack.length).length ≠ 0 := by
      rw [writeVariable_length]; unfold variableSize; repeat' split
      all_goals decide
    simp only [List.flatMap_cons, List.length_append, Witness.toData, if_true]
    omega

theorem strip_length {t : Tx} (hn : t.inputs ≠ []) : strippedOf (t.toData true).length (witsData t).length = (t.toData false).length := by
  have h := full_length t
  have hb := body_length t
  have h2 : (t.toData false).length = 4 + (bodyData t).length + 4 := by rw [stripped_eq]; simp; omega
  unfold strippedOf
  cases hs : t.segregated with
  | true =>
    rw [if_neg (wits_pos hs hn)]
    have : marks t = 2 := by simp [marks, hs]
    omega
  | false =>
    have h3 : (witsData t).length = 0 := by simp [witsData, hs]
    rw [if_pos h3, unsegregated_data hs]

theorem deseg_eq (H : Bytes → Hash) {t : Tx} (tail : Bytes) (hs : t.segregated = true) (hn : t.inputs ≠ []) :
    desegregatedHash H (t.toData true).length (strippedOf (t.toData true).length (witsData t).length) (t.toData true ++ tail) =
      H (t.toData false) := by
  unfold desegregatedHash
  rw [strip_length hn, at_version, at_lock]
  have hm : marks t = 2 := by simp [marks, hs]
  have h6 := at_body t tail
  rw [hm] at h6
  have h2 : (t.toData false).length = 4 + (bodyData t).length + 4 := by rw [stripped_eq]; simp; omega
  rw [h6, take_of rfl (by omega), stripped_eq]

theorem seen_inputs (w : Bool) (t : Tx) : (seen w t).version = t.version ∧ (seen w t).locktime = t.locktime ∧ (seen w t).outputs = t.outputs ∧
    (seen w t).inputs.length = t.inputs.length ∧ (seen w t).segregated = (t.segregated && w) ∧
    (seen w t).inputs.flatMap Input.toData = insData t ∧
    (seen w t).inputs.map (fun i => (i.script.toData true).length) = t.inputs.map inputTable ∧
    (seen w t).inputs.map (fun i => i.point) = t.inputs.map fun i => i.point := by
  cases w with
  | true => simp [seen, insData, inputTable]
  | false =>
    simp only [seen, Tx.stripped, Bool.false_eq_true, if_false, Bool.and_false, List.length_map, true_and, List.map_map, List.flatMap_map]
    refine ⟨?_, ?_, ?_⟩
    · show List.flatMap Input.toData t.inputs = _
      rfl
    · rfl
    · rfl

theorem seen_data (w : Bool) (t : Tx) (y : Bool) : (seen w t).toData y = t.toData (y && w) := by
  obtain ⟨h1, h2, h3, h4, h5, h6, _⟩ := seen_inputs w t
  unfold Tx.toData
  simp only
  rw [h1, h2, h3, h4, h5, h6]
  cases w with
  | true => simp [seen]
  | false => simp

theorem null_point (t : Tx) (tail : Bytes) (i : Input) (is : List Input) (hi : t.inputs = i :: is) (H : Bytes → Hash) (c w : Bool) :
    (rawView H (t.toData true ++ tail) t c w).isNullPoint = pointNull i.point := by
  have hb := at_body t tail
  have e : ∃ rest, (t.toData true ++ tail).drop (4 + marks t + variableSize t.inputs.length) =
      i.point.hash.bytes ++ (writeU32 i.point.index ++ rest) := by
    refine ⟨(i.script.toData true ++ writeU32 i.sequence) ++ (is.flatMap Input.toData ++ (writeVariable t.outputs.length ++ (outsData t ++
      (witsData t ++ (writeU32 t.locktime ++ tail))))), ?_⟩
    rw [← List.drop_drop, hb]
    refine drop_of (a := writeVariable t.inputs.length) ?_ (writeVariable_length _).symm
    simp [bodyData, insData, hi, Input.toData, Point.toData]
  obtain ⟨rest, e⟩ := e
  have e2 : (t.toData true ++ tail).drop (4 + marks t + variableSize t.inputs.length + 32) = writeU32 i.point.index ++ rest := by
    rw [← List.drop_drop, e]; exact List.drop_left' i.point.hash.len
  unfold TxView.isNullPoint
  show (decide (((t.toData true ++ tail).drop (4 + marks t + variableSize t.inputs.length)).take 32 = nullHash.bytes) &&
    decide (leNat (((t.toData true ++ tail).drop (4 + marks t + variableSize t.inputs.length + 32)).take 4) = 0xffffffff)) = _
  rw [e, e2, List.take_left' i.point.hash.len, List.take_left' (by simp)]
  unfold pointNull
  have h1 : i.point.hash.bytes = nullHash.bytes ↔ i.point.hash = nullHash := ⟨Hash.ext, fun h => by rw [h]⟩
  have h2 : leNat (writeU32 i.point.index) = 0xffffffff ↔ i.point.index = 0xffffffff := by
    have : leNat (writeU32 i.point.index) = i.point.index.toNat := leNat_leBytes_of_lt (by simpa using i.point.index.toNat_lt)
    rw [this]
    constructor
    · intro h; exact UInt32.toNat_inj.1 (by rw [h]; rfl)
    · intro h; rw [h]; rfl
  simp only [decide_eq_decide.2 h1, decide_eq_decide.2 h2, Bool.and_comm]

theorem leNat_u32 (v : UInt32) : UInt32.ofNat (leNat (writeU32 v)) = v := by
  have : leNat (writeU32 v) = v.toNat := leNat_leBytes_of_lt (by simpa using v.toNat_lt)
  rw [this]; simp

theorem length_flatMap' {α} (f : α → Bytes) (l : List α) : (l.flatMap f).length = (l.map fun x => (f x).length).sum := by
  induction l with
  | nil => rfl
  | cons a l ih => simp [ih]

theorem outs_at (t : Tx) (tail : Bytes) : (t.toData true ++ tail).drop (4 + marks t + variableSize t.inputs.length + (insData t).length + variableSize t.outputs.length) =
    outsData t ++ (witsData t ++ (writeU32 t.locktime ++ tail)) := by
  have hb := at_body t tail
  have : 4 + marks t + variableSize t.inputs.length + (insData t).length + variableSize t.outputs.length =
    (4 + marks t) + (variableSize t.inputs.length + (insData t).length + variableSize t.outputs.length) := by omega
  rw [this, ← List.drop_drop, hb]
  refine drop_of (a := writeVariable t.inputs.length ++ (insData t ++ writeVariable t.outputs.length)) (by simp [bodyData]) ?_
  simp only [List.length_append, writeVariable_length]; omega

theorem agrees (H : Bytes → Hash) (t : Tx) (tail : Bytes) (c w : Bool) (hv : Viewable t) :
    Agrees H c (rawView H (t.toData true ++ tail) t c w) (seen w t) := by
  obtain ⟨s1, s2, s3, s4, s5, s6, s7, s8⟩ := seen_inputs w t
  have hfull := full_length t
  have hbl := body_length t
  have hdata : ∀ y, (rawView H (t.toData true ++ tail) t c w).toData y = t.toData (y && w) := by
    intro y
    unfold TxView.toData
    show (if y && (t.segregated && w) then (t.toData true ++ tail).take (t.toData true).length else
      (t.toData true ++ tail).take 4 ++ (((t.toData true ++ tail).drop (4 + if (witsData t).length = 0 then 0 else 2)).take
        ((t.toData true).length - (witsData t).length - 4 - 4 - if (witsData t).length = 0 then 0 else 2) ++
        ((t.toData true ++ tail).drop ((t.toData true).length - 4)).take 4)) = _
    have hm : (if (witsData t).length = 0 then 0 else 2) = marks t := by
      cases hs : t.segregated with
      | true => rw [if_neg (wits_pos hs hv.inputs)]; simp [marks, hs]
      | false => simp [marks, witsData, hs]
    have hst : (t.toData true ++ tail).take 4 ++ (((t.toData true ++ tail).drop (4 + if (witsData t).length = 0 then 0 else 2)).take
        ((t.toData true).length - (witsData t).length - 4 - 4 - if (witsData t).length = 0 then 0 else 2) ++
        ((t.toData true ++ tail).drop ((t.toData true).length - 4)).take 4) = t.toData false := by
      rw [at_version, at_lock, hm, at_body, take_of rfl (by omega), stripped_eq]
    rw [hst, at_full]
    cases hs : t.segregated with
    | true => cases y <;> cases w <;> simp
    | false => rw [unsegregated_data hs]; cases y <;> cases w <;> simp [unsegregated_data hs]
  have hsz : ∀ y, (rawView H (t.toData true ++ tail) t c w).serializedSize y = (t.toData (y && w)).length := by
    intro y
    unfold TxView.serializedSize TxView.strippedSize
    show (if y && (t.segregated && w) then (t.toData true).length else strippedOf (t.toData true).length (witsData t).length) = _
    rw [strip_length hv.inputs]
    cases hs : t.segregated with
    | true => cases y <;> cases w <;> simp
    | false => rw [unsegregated_data hs]; cases y <;> cases w <;> simp [unsegregated_data hs]
  have htx : (rawView H (t.toData true ++ tail) t c w).txid = H (t.toData false) := by
    show (if t.segregated then _ else _) = _
    cases hs : t.segregated with
    | true => rw [if_pos rfl, deseg_eq H tail hs hv.inputs]
    | false => rw [if_neg (by simp), at_full, unsegregated_data hs]
  constructor
  · rfl
  · rfl
  · rw [s1]; show UInt32.ofNat (leNat ((t.toData true ++ tail).take 4)) = _; rw [at_version, leNat_u32]
  · rw [s2]; show UInt32.ofNat (leNat (((t.toData true ++ tail).drop ((t.toData true).length - 4)).take 4)) = _; rw [at_lock, leNat_u32]
  · exact s4.symm
  · rw [s3]; rfl
  · exact s5.symm
  · intro i is hi
    cases ht : t.inputs with
    | nil => exact absurd ht hv.inputs
    | cons j js =>
      rw [null_point t tail j js ht]
      rw [hi, ht] at s8
      simp only [List.map_cons, List.cons.injEq] at s8
      rw [s8.1]
  · intro y; rw [seen_data, hdata]
  · intro y; rw [seen_data, hsz]
  · rw [seen_data]; exact htx
  · rw [seen_data, seen_data, s5]
    unfold TxView.hash
    rw [htx]
    show (if true && (t.segregated && w) then (if true && t.segregated && w && !c then H ((t.toData true ++ tail).take (t.toData true).length)
      else nullHash) else _) = _
    rw [at_full]
    cases t.segregated <;> cases w <;> cases c <;> rfl
  · rw [s6, s3]
    show ((t.toData true ++ tail).drop (4 + marks t + variableSize t.inputs.length)).take _ = _
    rw [← List.drop_drop, at_body]
    have : List.drop (variableSize t.inputs.length) (bodyData t ++ (witsData t ++ (writeU32 t.locktime ++ tail))) =
        (insData t ++ (writeVariable t.outputs.length ++ outsData t)) ++ (witsData t ++ (writeU32 t.locktime ++ tail)) :=
      drop_of (a := writeVariable t.inputs.length) (by simp [bodyData]) (writeVariable_length _).symm
    rw [this]
    refine take_of rfl ?_
    show (t.toData true).length - (4 + marks t + variableSize t.inputs.length) - ((witsData t).length + 4) = _
    simp only [List.length_append, writeVariable_length]
    simp only [insData, outsData] at *
    omega
  · rw [s3]
    show ((t.toData true ++ tail).drop (4 + marks t + variableSize t.inputs.length + (insData t).length + variableSize t.outputs.length)).take _ = _
    rw [outs_at]
    refine take_of rfl ?_
    show (t.toData true).length - (4 + marks t + variableSize t.inputs.length + (insData t).length + variableSize t.outputs.length) -
      ((witsData t).length + 4) = (outsData t).length
    omega
  · rw [s7]
    show (t.inputs.map inputTable).sum + (if t.segregated && w then (witsData t).length else t.inputs.length) = _
    congr 1
    cases w with
    | true =>
      simp only [seen, if_true, Bool.and_true]
      cases hs : t.segregated with
      | true => simp only [if_true, witsData, hs]; rw [length_flatMap']
      | false =>
        simp only [Bool.false_eq_true, if_false]
        have hno : segregatedInputs t.inputs = false := by rw [← hv.writable.segregated, hs]
        unfold segregatedInputs at hno
        rw [List.any_eq_false] at hno
        clear * - hno
        revert hno
        generalize t.inputs = l
        induction l with
        | nil => intro _; rfl
        | cons i l ih =>
          intro h
          have hi := h i (by simp)
          have : i.witness.stack = [] := by simpa using hi
          rw [List.map_cons, List.sum_cons, ← ih fun x hx => h x (by simp [hx])]
          simp [Witness.toData, this, writeVariable_zero]; omega
    | false =>
      simp only [seen, Tx.stripped, Bool.and_false, Bool.false_eq_true, if_false, List.map_map]
      clear * -
      generalize t.inputs = l
      induction l with
      | nil => rfl
      | cons i l ih =>
        rw [List.map_cons, List.sum_cons, ← ih]
        simp [Witness.toData, Witness.empty, writeVariable_zero]; omega
  · rw [s4]; rfl
  · rw [s3]; rfl

end Verif.Views
