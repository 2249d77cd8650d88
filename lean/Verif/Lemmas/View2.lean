import Verif.Lemmas.View
import Verif.Spec.View
/-! Helper lemmas for the block and transaction views: the constructor. -/
namespace Verif.Views
open Verif Validate Merkle Verif.Spec

/-- Bytes of the inputs, outputs, witnesses. -/
abbrev insData (t : Tx) : Bytes := t.inputs.flatMap Input.toData
abbrev outsData (t : Tx) : Bytes := t.outputs.flatMap Output.toData
abbrev witsData (t : Tx) : Bytes := if t.segregated then t.inputs.flatMap (fun i => i.witness.toData true) else []
abbrev marks (t : Tx) : Nat := if t.segregated then 2 else 0

/-- The view of a transaction at the start of `buf`. -/
def rawView (H : Bytes → Hash) (buf : Bytes) (t : Tx) (c w : Bool) : TxView where
  ptr := some buf
  inOffset := 4 + marks t + variableSize t.inputs.length
  inCount := t.inputs.length
  outOffset := 4 + marks t + variableSize t.inputs.length + (insData t).length + variableSize t.outputs.length
  outCount := t.outputs.length
  size := (t.toData true).length
  witnessesSize := (witsData t).length
  inputTable := (t.inputs.map inputTable).sum + if t.segregated && w then (witsData t).length else t.inputs.length
  outputTable := (t.outputs.map outputTable).sum
  txid := if t.segregated then desegregatedHash H (t.toData true).length (strippedOf (t.toData true).length (witsData t).length) buf
    else H (buf.take (t.toData true).length)
  wtxid := if true && t.segregated && w && !c then H (buf.take (t.toData true).length) else nullHash
  segregated := t.segregated && w
  coinbase := c

theorem full_length (t : Tx) : (t.toData true).length = 4 + marks t + variableSize t.inputs.length + (insData t).length +
    variableSize t.outputs.length + (outsData t).length + (witsData t).length + 4 := by
  unfold Tx.toData
  cases h : t.segregated <;>
  simp [marks, witsData, insData, outsData, h, writeVariable_length] <;> omega

theorem _root_.Verif.Spec.Viewable.shortIn {t : Tx} (h : Viewable t) : ∀ i ∈ t.inputs, Short i.script := fun i hi =>
  ⟨h.writable.inScripts i hi, by rw [(h.writable.inScripts i hi).size]; exact h.inSizes i hi⟩
theorem _root_.Verif.Spec.Viewable.shortOut {t : Tx} (h : Viewable t) : ∀ o ∈ t.outputs, Short o.script := fun o ho =>
  ⟨h.writable.outScripts o ho, by rw [(h.writable.outScripts o ho).size]; exact h.outSizes o ho⟩

theorem fwd_body (H : Bytes → Hash) (data : Bytes) (c w : Bool) (start : Nat) {t : Tx} (h : Viewable t) :
    FwdAt (start + (4 + marks t + variableSize t.inputs.length)) (TxView.readBody H data c w start t.segregated t.inputs.length)
      (insData t ++ (writeVariable t.outputs.length ++ (outsData t ++ (witsData t ++ writeU32 t.locktime))))
      (rawView H (data.drop start) t c w) := by
  have hmc : maxCount = 1000000 := rfl
  have hcount := h.writable.outCount
  unfold TxView.readBody
  refine (fwd_getPosition _).bind0 ((fwd_skipInputs t.inputs h.shortIn).at _ |>.bind ?_)
  refine ((fwd_readSize maxCount t.outputs.length (by omega) hcount).U.at _).bind ?_
  refine (fwd_getPosition _).bind0 ((fwd_skipOutputs t.outputs h.shortOut).at _ |>.bind ?_)
  refine (fwd_getPosition _).bind0 ?_
  have hw : FwdU (if t.segregated = true then skipWits t.inputs.length else pure true) (witsData t) true := by
    unfold witsData
    by_cases hs : t.segregated = true
    · rw [if_pos hs, if_pos hs]
      have := fwd_skipWits t.inputs (h.writable.witnesses hs)
      rwa [h.elements hs] at this
    · rw [if_neg hs, if_neg hs]; exact FwdU.pure _
  refine (hw.at _).bind (b := writeU32 t.locktime) ?_
  simp only [Bool.not_true]
  refine (fwd_invalidateIf.at _).bind0 ?_
  have h4 : FwdU (doSkip 4) (writeU32 t.locktime) () := by
    have := (fwd_doSkip (writeU32 t.locktime) (by simp; decide)).U
    simpa using this
  refine ((h4.at _).bind (b := []) (y := rawView H (data.drop start) t c w) ?_).congr (by simp) rfl
  refine (fwd_getPosition _).bind0 ?_
  have e1 : (decide (t.inputs.length = 0) || decide (t.outputs.length = 0)) = false := by
    have := h.inputs; have := h.outputs
    simp [*]
  rw [e1]
  refine (fwd_invalidateIf.at _).bind0 ?_
  refine ((FwdU.done _).at _).congr rfl ?_
  have hfull := full_length t
  simp only [insData, outsData] at *
  generalize hI : (List.flatMap Input.toData t.inputs).length = I at *
  generalize hO : (List.flatMap Output.toData t.outputs).length = O at *
  generalize hW : (witsData t).length = W at *
  generalize hm : marks t = m at *
  have e2 : start + (4 + m + variableSize t.inputs.length) + I + (writeVariable t.outputs.length).length + O + W +
      (writeU32 t.locktime).length - start = (t.toData true).length := by
    rw [writeVariable_length]; simp; omega
  have e3 : start + (4 + m + variableSize t.inputs.length) + I + (writeVariable t.outputs.length).length + O - start + 4 =
      (t.toData true).length - W := by
    rw [writeVariable_length]; omega
  have e4 : (t.toData true).length - ((t.toData true).length - W) = W := by omega
  rw [e2, e3, e4]
  unfold rawView
  simp only [TxView.mk.injEq, if_true, hW, hm, hI, true_and, and_true, insData]
  rw [writeVariable_length]
  omega

theorem fwd_detect {α} {n m : Nat} (h : n ≠ 0) {f : Bool → Reader α} {bs : Bytes} {y : α}
    (hf : FwdAt m (f false) bs y) : FwdAt m (detect n >>= f) bs y := by
  intro s hm hs hg hu hp
  have : detect n s = (false, s) := by unfold detect; rw [if_neg h]
  rw [bind_run, this]
  exact hf s hm hs hg hu hp

theorem fwd_detect_zero {α} {m : Nat} {f : Bool → Reader α} {c : UInt8} {bs : Bytes} {y : α}
    (hf : FwdAt m (f (c == 1)) (c :: bs) y) : FwdAt m (detect 0 >>= f) (c :: bs) y := by
  intro s hm hs hg hu hp
  have hl := hp.length_le
  rw [s.rest_length] at hl
  simp only [List.length_cons] at hl
  have hrem : s.rem ≠ 0 := by unfold RS.Unl at hu; omega
  have : detect 0 s = (c == 1, s) := by
    unfold detect peekByte
    simp only [if_true, hrem, if_false, hg, Bool.true_and, decide_eq_true_eq]
    rw [if_pos (by omega)]
    obtain ⟨t, ht⟩ := hp
    rw [← ht]; rfl
  rw [bind_run, this]
  exact hf s hm hs hg hu hp

theorem fwd_txView (H : Bytes → Hash) (data : Bytes) (c w : Bool) (start : Nat) {t : Tx} (h : Viewable t) :
    FwdAt start (TxView.read H data c w) (t.toData true) (rawView H (data.drop start) t c w) := by
  have hmc : maxCount = 1000000 := rfl
  have hcount := h.writable.inCount
  have hb := fwd_body H data c w start h
  have h4 : FwdU (doSkip 4) (writeU32 t.version) () := by
    have := (fwd_doSkip (writeU32 t.version) (by simp; decide)).U
    simpa using this
  have hc := (fwd_readSize maxCount t.inputs.length (by omega) hcount).U
  unfold TxView.read
  refine (fwd_getPosition _).bind0 ?_
  unfold Tx.toData
  refine (h4.at _).bind ?_
  simp only [writeU32_length, Bool.true_and]
  cases hs : t.segregated with
  | true =>
    simp only [if_true, List.cons_append, List.nil_append]
    have hz := ((fwd_readSize maxCount 0 (by decide) (by decide)).U.at (start + 4))
    rw [writeVariable_zero] at hz
    refine FwdAt.congr (a := [0] ++ (1 :: (writeVariable t.inputs.length ++ (insData t ++ (writeVariable t.outputs.length ++ (outsData t ++
      (witsData t ++ writeU32 t.locktime))))))) ?_ (by simp [witsData, hs]) rfl
    refine hz.bind ?_
    refine fwd_detect_zero ?_
    simp only [beq_self_eq_true, if_true]
    refine FwdAt.congr (a := [1] ++ (writeVariable t.inputs.length ++ (insData t ++ (writeVariable t.outputs.length ++ (outsData t ++
      (witsData t ++ writeU32 t.locktime)))))) ?_ (by simp) rfl
    refine ((doSkip_one_fwd 1).U.at _).bind ((hc.at _).bind ?_)
    rw [hs] at hb
    have e : start + 4 + ([0] : Bytes).length + ([1] : Bytes).length + (writeVariable t.inputs.length).length =
      start + (4 + marks t + variableSize t.inputs.length) := by
      rw [writeVariable_length]; simp [marks, hs]; omega
    rw [e]
    exact hb
  | false =>
    simp only [Bool.false_eq_true, if_false, List.nil_append]
    refine FwdAt.congr (a := writeVariable t.inputs.length ++ (insData t ++ (writeVariable t.outputs.length ++ (outsData t ++
      (witsData t ++ writeU32 t.locktime))))) ?_ (by simp [witsData, hs]) rfl
    refine (hc.at _).bind ?_
    refine fwd_detect (by simpa using h.inputs) ?_
    simp only [Bool.false_eq_true, if_false]
    rw [hs] at hb
    have e : start + 4 + (writeVariable t.inputs.length).length = start + (4 + marks t + variableSize t.inputs.length) := by
      rw [writeVariable_length]; simp [marks, hs]; omega
    rw [e]
    exact hb

end Verif.Views
