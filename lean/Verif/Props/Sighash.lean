import Verif.Model.Sighash
import Verif.Spec.Sighash
import Verif.Spec.Chain
import Verif.Lemmas.Codec2
import Verif.Props.Machine
/-!
# C39: signature hashes commit to what the types say
-/
namespace Verif.Sighash

open Verif.Spec.Sighash (isNone isSingle isAnyoneCanPay)

/-! ### Types -/

theorem flags_table : ∀ n < 256, (maskSighash (UInt8.ofNat n) = .single ↔ n % 32 = 3) ∧ (maskSighash (UInt8.ofNat n) = .none ↔ n % 32 = 2) ∧
    (isAnyone (UInt8.ofNat n) = true ↔ 128 ≤ n) := by
  decide +kernel

theorem flags_iff (f : UInt8) : (maskSighash f = .single ↔ isSingle f) ∧ (maskSighash f = .none ↔ isNone f) ∧
    (isAnyone f = true ↔ isAnyoneCanPay f) := by
  have h := flags_table f.toNat f.toNat_lt
  rwa [UInt8.ofNat_toNat] at h

/-- The three cases. -/
theorem flags_cases (f : UInt8) : (maskSighash f = .single ∧ isSingle f ∧ ¬ isNone f) ∨ (maskSighash f = .none ∧ isNone f ∧ ¬ isSingle f) ∨
    (maskSighash f = .all ∧ ¬ isNone f ∧ ¬ isSingle f) := by
  obtain ⟨h1, h2, -⟩ := flags_iff f
  cases h : maskSighash f with
  | single => exact Or.inl ⟨rfl, h1.1 h, fun h' => by rw [h2.2 h'] at h; cases h⟩
  | none => exact Or.inr (Or.inl ⟨rfl, h2.1 h, fun h' => by rw [h1.2 h'] at h; cases h⟩)
  | all => exact Or.inr (Or.inr ⟨rfl, (fun h' => by rw [h2.2 h'] at h; cases h), (fun h' => by rw [h1.2 h'] at h; cases h)⟩)

/-! ### The original message -/

theorem mapIdx_split {α β} (f : Nat → α → β) (l : List α) (n : Nat) (h : n < l.length) :
    l.mapIdx f = (l.take n).mapIdx f ++ [f n l[n]] ++ (l.drop (n + 1)).mapIdx (fun k => f (k + (n + 1))) := by
  conv => lhs; rw [← List.take_append_drop n l]
  rw [List.mapIdx_append, List.append_assoc, List.drop_eq_getElem_cons h]
  congr 1
  have : (l.take n).length = n := by rw [List.length_take]; omega
  rw [List.mapIdx_cons, this, Nat.zero_add]
  simp only [List.cons_append, List.nil_append]
  congr 1
  congr 1
  funext k
  rw [show k + 1 + n = k + (n + 1) by omega]

theorem mapIdx_flatMap {α β γ} (f : Nat → α → β) (g : β → List γ) (h : α → List γ) (l : List α)
    (e : ∀ k a, k < l.length → g (f k a) = h a) : (l.mapIdx f).flatMap g = l.flatMap h := by
  induction l generalizing f with
  | nil => rfl
  | cons a l ih =>
    rw [List.mapIdx_cons, List.flatMap_cons, List.flatMap_cons, e 0 a (by simp), ih (fun k => f (k + 1)) (fun k b hk => e (k + 1) b (by simpa using hk))]

theorem subData_eq (code : List Op) : subData code = (Script.ofOps code).toData true := by
  simp [subData, scriptData, Script.toData, Script.serializedSize, Script.ofOps]

theorem empty_eq : emptyScript = Spec.Sighash.emptyScript.toData true := rfl

/-- The inputs of the copy. -/
theorem inputs_eq (t : Tx) (n : Nat) (code : List Op) (f : UInt8) (hn : n < t.inputs.length) (other : Input → Bytes)
    (ho : other = if isNone f ∨ isSingle f then otherZero else otherSeq) :
    writeInputs other t n code f =
      writeVariable (Spec.Sighash.copy t n code f).inputs.length ++ (Spec.Sighash.copy t n code f).inputs.flatMap Input.toData := by
  unfold writeInputs Spec.Sighash.copy
  dsimp only
  have h3 := (flags_iff f).2.2
  rw [List.getElem?_eq_getElem hn]
  dsimp only
  by_cases ha : isAnyoneCanPay f
  · rw [h3.2 ha]
    simp only [if_true, if_pos ha, List.append_nil]
    rw [mapIdx_split _ _ n hn]
    have hl : (t.inputs.take n).length = n := by rw [List.length_take]; omega
    rw [List.append_assoc, List.drop_append_of_le_length (by rw [List.length_mapIdx]; omega), List.drop_of_length_le (by rw [List.length_mapIdx]; omega)]
    simp only [List.nil_append, List.cons_append, List.take_succ_cons, List.take_zero, List.length_cons, List.length_nil,
      List.flatMap_cons, List.flatMap_nil, List.append_nil]
    simp only [signed, Input.toData, subData_eq, ne_eq, not_true, false_and, if_true, if_false, List.append_assoc, Nat.zero_add]
  · have hf : isAnyone f = false := by
      cases h : isAnyone f with
      | false => rfl
      | true => exact absurd (h3.1 h) ha
    rw [hf]
    simp only [Bool.false_eq_true, if_false, if_neg ha, List.length_mapIdx]
    rw [mapIdx_split _ _ n hn]
    simp only [List.flatMap_append, List.flatMap_cons, List.flatMap_nil, List.append_nil]
    have hl : (t.inputs.take n).length = n := by rw [List.length_take]; omega
    have hother : ∀ k (i : Input), k ≠ n → Input.toData { i with
        script := if k = n then Script.ofOps code else Spec.Sighash.emptyScript
        sequence := if k ≠ n ∧ (isNone f ∨ isSingle f) then 0 else i.sequence } = other i := by
      intro k i hk
      rw [ho]
      by_cases hz : isNone f ∨ isSingle f
      · simp only [if_pos hz, if_neg hk, if_pos (show k ≠ n ∧ (isNone f ∨ isSingle f) from ⟨hk, hz⟩), Input.toData, otherZero, zeroSequence, empty_eq, List.append_assoc]
      · simp only [if_neg hz, if_neg hk, if_neg (show ¬ (k ≠ n ∧ (isNone f ∨ isSingle f)) from fun h => hz h.2), Input.toData, otherSeq, empty_eq, List.append_assoc]
    rw [mapIdx_flatMap _ _ other (t.inputs.take n) (fun k i hk => hother k i (by omega)),
      mapIdx_flatMap _ _ other (t.inputs.drop (n + 1)) (fun k i hk => hother _ i (by omega))]
    simp only [signed, Input.toData, subData_eq, ne_eq, not_true, false_and, if_true, if_false, List.append_assoc]

/-- What the code hashes is the message of the original client, except for `SINGLE` without an output of the index. -/
theorem C39_original (H : Bytes → Bytes) (t : Tx) (n : Nat) (code : List Op) (f : UInt8) (hn : n < t.inputs.length) (hc : n < 2 ^ 32) :
    unversioned H t n code f =
      if isSingle f ∧ t.outputs.length ≤ n then oneHash else H (H (Spec.Sighash.original t n code f)) := by
  unfold unversioned
  have hi : inputIndex n = n := Nat.mod_eq_of_lt hc
  dsimp only
  rw [hi, outputOverflow]
  rcases flags_cases f with ⟨hm, h1, h2⟩ | ⟨hm, h1, h2⟩ | ⟨hm, h1, h2⟩
  · rw [hm]
    by_cases ho : t.outputs.length ≤ n
    · rw [if_pos ⟨rfl, by simpa using ho⟩, if_pos ⟨h1, ho⟩]
    · rw [if_neg (by simpa using ho), if_neg (fun h => ho h.2)]
      dsimp only
      congr 2
      unfold hashSingle Spec.Sighash.original
      rw [inputs_eq t n code f hn otherZero (by rw [if_pos (Or.inr h1)])]
      have hlt : n < t.outputs.length := by omega
      have hout : singleOutputs t n = writeVariable (Spec.Sighash.copy t n code f).outputs.length ++
          (Spec.Sighash.copy t n code f).outputs.flatMap Output.toData := by
        unfold singleOutputs
        dsimp only
        rw [hi, List.getElem?_eq_getElem hlt]
        have e : (Spec.Sighash.copy t n code f).outputs =
            (t.outputs.take (n + 1)).mapIdx fun k o => if k < n then Spec.Sighash.nullOut else o := by
          unfold Spec.Sighash.copy
          dsimp only
          rw [if_neg h2, if_pos h1]
        have hl : (t.outputs.take (n + 1)).length = n + 1 := by rw [List.length_take]; omega
        rw [e, mapIdx_split _ _ n (by omega)]
        have hd : (t.outputs.take (n + 1)).drop (n + 1) = [] := List.drop_of_length_le (by omega)
        rw [hd]
        simp only [List.mapIdx_nil, List.append_nil, List.flatMap_append, List.flatMap_cons, List.flatMap_nil, if_neg (Nat.lt_irrefl n)]
        have hl2 : ((t.outputs.take (n + 1)).take n).length = n := by rw [List.length_take]; omega
        have hnull : ∀ l : List Output, l.length ≤ n →
            (l.mapIdx fun k o => if k < n then Spec.Sighash.nullOut else o).flatMap Output.toData = l.flatMap (fun _ => nullOutput) := by
          intro l hl
          apply mapIdx_flatMap
          intro k a hk
          rw [if_pos (by omega)]
          rfl
        rw [hnull _ (by omega)]
        have hconst : ∀ (l : List Output), l.flatMap (fun _ => nullOutput) = (List.range l.length).flatMap (fun _ => nullOutput) := by
          intro l
          rw [List.flatMap_def, List.flatMap_def, List.map_const', List.map_const', List.length_range]
        rw [hconst, hl2, List.length_append, List.length_mapIdx, hl2]
        simp only [List.length_cons, List.length_nil, List.getElem_take]
        rw [List.append_assoc]
      rw [hout]
      simp only [Tx.toData, Bool.false_and, Bool.false_eq_true, if_false, List.nil_append, List.append_assoc]
      rfl
  · rw [hm, if_neg (fun h => by cases h.1), if_neg (fun h => h2 h.1)]
    dsimp only
    congr 2
    unfold hashNone Spec.Sighash.original
    rw [inputs_eq t n code f hn otherZero (by rw [if_pos (Or.inl h1)])]
    have e : (Spec.Sighash.copy t n code f).outputs = [] := by
      unfold Spec.Sighash.copy
      dsimp only
      rw [if_pos h1]
    simp only [Tx.toData, Bool.false_and, Bool.false_eq_true, if_false, List.nil_append, List.append_assoc, e, List.length_nil, List.flatMap_nil]
    rfl
  · rw [hm, if_neg (fun h => by cases h.1), if_neg (fun h => h2 h.1)]
    dsimp only
    congr 2
    unfold hashAll Spec.Sighash.original
    rw [inputs_eq t n code f hn otherSeq (by rw [if_neg (fun h => h.elim h1 h2)])]
    have e : (Spec.Sighash.copy t n code f).outputs = t.outputs := by
      unfold Spec.Sighash.copy
      dsimp only
      rw [if_neg h1, if_neg h2]
    simp only [Tx.toData, Bool.false_and, Bool.false_eq_true, if_false, List.nil_append, List.append_assoc, e]
    rfl

/-! ### What the messages commit to -/

theorem writeLE_inj {n a b : Nat} (ha : a < 256 ^ n) (hb : b < 256 ^ n) (h : writeLE n a = writeLE n b) : a = b := by
  have := congrArg leNat h
  rwa [writeLE, writeLE, leNat_leBytes_of_lt ha, leNat_leBytes_of_lt hb] at this

theorem writeLE_prefix {n a b : Nat} {x y : Bytes} (ha : a < 256 ^ n) (hb : b < 256 ^ n) (h : writeLE n a ++ x = writeLE n b ++ y) :
    a = b ∧ x = y := by
  obtain ⟨h1, h2⟩ := List.append_inj h (by simp [writeLE])
  exact ⟨writeLE_inj ha hb h1, h2⟩

theorem writeU32_prefix {a b : UInt32} {x y : Bytes} (h : writeU32 a ++ x = writeU32 b ++ y) : a = b ∧ x = y := by
  obtain ⟨h1, h2⟩ := writeLE_prefix (by have := a.toNat_lt; omega) (by have := b.toNat_lt; omega) h
  exact ⟨UInt32.toNat_inj.1 h1, h2⟩

theorem writeU64_prefix {a b : UInt64} {x y : Bytes} (h : writeU64 a ++ x = writeU64 b ++ y) : a = b ∧ x = y := by
  obtain ⟨h1, h2⟩ := writeLE_prefix (by have := a.toNat_lt; omega) (by have := b.toNat_lt; omega) h
  exact ⟨UInt64.toNat_inj.1 h1, h2⟩

theorem byte_small {v : Nat} (h : v < 0xfd) : (UInt8.ofNat v).toNat = v := by
  rw [UInt8.toNat_ofNat']; omega

theorem writeVariable_shape {v : Nat} (hv : v < 2 ^ 64) : ∃ (c : UInt8) (n : Nat), writeVariable v = c :: writeLE n v ∧
    ((c.toNat = v ∧ v < 0xfd ∧ n = 0) ∨ (c = 0xfd ∧ n = 2 ∧ v < 256 ^ 2) ∨ (c = 0xfe ∧ n = 4 ∧ v < 256 ^ 4) ∨ (c = 0xff ∧ n = 8 ∧ v < 256 ^ 8)) := by
  unfold writeVariable
  split
  · rename_i h
    exact ⟨UInt8.ofNat v, 0, rfl, Or.inl ⟨byte_small h, h, rfl⟩⟩
  · split
    · exact ⟨0xfd, 2, rfl, Or.inr (Or.inl ⟨rfl, rfl, by omega⟩)⟩
    · split
      · exact ⟨0xfe, 4, rfl, Or.inr (Or.inr (Or.inl ⟨rfl, rfl, by omega⟩))⟩
      · exact ⟨0xff, 8, rfl, Or.inr (Or.inr (Or.inr ⟨rfl, rfl, by omega⟩))⟩

theorem writeVariable_prefix {a b : Nat} {x y : Bytes} (ha : a < 2 ^ 64) (hb : b < 2 ^ 64)
    (h : writeVariable a ++ x = writeVariable b ++ y) : a = b ∧ x = y := by
  obtain ⟨c, n, e1, h1⟩ := writeVariable_shape ha
  obtain ⟨d, m, e2, h2⟩ := writeVariable_shape hb
  rw [e1, e2, List.cons_append, List.cons_append, List.cons.injEq] at h
  obtain ⟨hc, h⟩ := h
  subst hc
  have e253 : (0xfd : UInt8).toNat = 253 := rfl
  have e254 : (0xfe : UInt8).toNat = 254 := rfl
  have e255 : (0xff : UInt8).toNat = 255 := rfl
  rcases h1 with ⟨g1, g2, rfl⟩ | ⟨rfl, rfl, g2⟩ | ⟨rfl, rfl, g2⟩ | ⟨rfl, rfl, g2⟩ <;>
  rcases h2 with ⟨k1, k2, rfl⟩ | ⟨k1, rfl, k2⟩ | ⟨k1, rfl, k2⟩ | ⟨k1, rfl, k2⟩ <;>
  first
  | exact writeLE_prefix g2 k2 h
  | exact absurd k1 (by decide)
  | (exfalso; omega)
  | (exfalso; subst k1; omega)
  | exact ⟨by omega, h⟩

/-- A script whose cached size is its size in bytes. -/
def Fits (s : Script) : Prop := s.size = (opsData s.ops).length ∧ s.size < 2 ^ 64

theorem script_prefix {a b : Script} {x y : Bytes} (ha : Fits a) (hb : Fits b) (h : a.toData true ++ x = b.toData true ++ y) :
    opsData a.ops = opsData b.ops ∧ x = y := by
  simp only [Script.toData, Script.serializedSize, if_true, Bool.false_eq_true, if_false, List.append_assoc] at h
  obtain ⟨h1, h2⟩ := writeVariable_prefix ha.2 hb.2 h
  exact List.append_inj h2 (by rw [← ha.1, ← hb.1, h1])

theorem script_same {a b : Script} (ha : Fits a) (hb : Fits b) (h : opsData a.ops = opsData b.ops) : a.toData true = b.toData true := by
  simp only [Script.toData, Script.serializedSize, if_true, Bool.false_eq_true, if_false]
  rw [ha.1, hb.1, h]

theorem point_prefix {a b : Point} {x y : Bytes} (h : a.toData ++ x = b.toData ++ y) : a.hash = b.hash ∧ a.index = b.index ∧ x = y := by
  simp only [Point.toData, List.append_assoc] at h
  obtain ⟨h1, h2⟩ := List.append_inj h (by rw [a.hash.len, b.hash.len])
  obtain ⟨h3, h4⟩ := writeU32_prefix h2
  exact ⟨Hash.ext h1, h3, h4⟩

/-- A list of codes with known count. -/
theorem flatMap_prefix {α β} (P : α → Prop) (enc : α → Bytes) (g : α → β)
    (hp : ∀ a b x y, P a → P b → enc a ++ x = enc b ++ y → g a = g b ∧ x = y) : ∀ (l m : List α) (x y : Bytes), (∀ a ∈ l, P a) → (∀ a ∈ m, P a) →
    l.length = m.length → l.flatMap enc ++ x = m.flatMap enc ++ y → l.map g = m.map g ∧ x = y
  | [], [], _, _, _, _, _, h => ⟨rfl, h⟩
  | [], _ :: _, _, _, _, _, hl, _ => by simp at hl
  | _ :: _, [], _, _, _, _, hl, _ => by simp at hl
  | a :: l, b :: m, x, y, h1, h2, hl, h => by
    simp only [List.flatMap_cons, List.append_assoc] at h
    obtain ⟨e1, e2⟩ := hp a b _ _ (h1 a (by simp)) (h2 b (by simp)) h
    obtain ⟨e3, e4⟩ := flatMap_prefix P enc g hp l m x y (fun a ha => h1 a (by simp [ha])) (fun a ha => h2 a (by simp [ha])) (by simpa using hl) e2
    exact ⟨by rw [List.map_cons, List.map_cons, e1, e3], e4⟩

theorem flatMap_same {α β} (P : α → Prop) (enc : α → Bytes) (g : α → β) (hp : ∀ a b, P a → P b → g a = g b → enc a = enc b) :
    ∀ l m : List α, (∀ a ∈ l, P a) → (∀ a ∈ m, P a) → l.map g = m.map g → l.flatMap enc = m.flatMap enc
  | [], [], _, _, _ => rfl
  | [], _ :: _, _, _, h => by simp at h
  | _ :: _, [], _, _, h => by simp at h
  | a :: l, b :: m, h1, h2, h => by
    simp only [List.map_cons, List.cons.injEq] at h
    rw [List.flatMap_cons, List.flatMap_cons, hp a b (h1 a (by simp)) (h2 b (by simp)) h.1,
      flatMap_same P enc g hp l m (fun a ha => h1 a (by simp [ha])) (fun a ha => h2 a (by simp [ha])) h.2]

/-- The scripts have the sizes the constructors and parsers set, and counts fit the format. -/
structure Fit (t : Tx) : Prop where
  ins : t.inputs.length < 2 ^ 64
  outs : t.outputs.length < 2 ^ 64
  inScripts : ∀ i ∈ t.inputs, Fits i.script
  outScripts : ∀ o ∈ t.outputs, Fits o.script

open Spec.Sighash in
/-- Equal wire forms have equal fields. -/
theorem wire_view {t u : Tx} {x y : Bytes} (ht : Fit t) (hu : Fit u) :
    t.toData false ++ x = u.toData false ++ y ↔ view t = view u ∧ x = y := by
  simp only [Tx.toData, Bool.false_and, Bool.false_eq_true, if_false, List.nil_append, List.append_assoc]
  constructor
  · intro h
    obtain ⟨h1, h⟩ := writeU32_prefix h
    obtain ⟨h2, h⟩ := writeVariable_prefix ht.ins hu.ins h
    obtain ⟨h3, h⟩ := flatMap_prefix (fun i : Input => Fits i.script) Input.toData
      (fun i => (i.point.hash, i.point.index, opsData i.script.ops, i.sequence)) (fun a b x y ha hb h => by
        simp only [Input.toData, List.append_assoc] at h
        obtain ⟨g1, g2, h⟩ := point_prefix h
        obtain ⟨g3, h⟩ := script_prefix ha hb h
        obtain ⟨g4, h⟩ := writeU32_prefix h
        exact ⟨by rw [g1, g2, g3, g4], h⟩) _ _ _ _ ht.inScripts hu.inScripts h2 h
    obtain ⟨h4, h⟩ := writeVariable_prefix ht.outs hu.outs h
    obtain ⟨h5, h⟩ := flatMap_prefix (fun o : Output => Fits o.script) Output.toData
      (fun o => (o.value, opsData o.script.ops)) (fun a b x y ha hb h => by
        simp only [Output.toData, List.append_assoc] at h
        obtain ⟨g1, h⟩ := writeU64_prefix h
        obtain ⟨g2, h⟩ := script_prefix ha hb h
        exact ⟨by rw [g1, g2], h⟩) _ _ _ _ ht.outScripts hu.outScripts h4 h
    obtain ⟨h6, h⟩ := writeU32_prefix h
    exact ⟨by rw [view, view, h1, h3, h5, h6], h⟩
  · rintro ⟨h, rfl⟩
    simp only [view, View.mk.injEq] at h
    obtain ⟨h1, h2, h3, h4⟩ := h
    have l1 : t.inputs.length = u.inputs.length := by simpa using congrArg List.length h2
    have l2 : t.outputs.length = u.outputs.length := by simpa using congrArg List.length h3
    rw [h1, h4, l1, l2, flatMap_same (fun i : Input => Fits i.script) Input.toData _ (fun a b ha hb h => by
        simp only [Prod.mk.injEq] at h
        rw [Input.toData, Input.toData, Point.toData, Point.toData, h.1, h.2.1, h.2.2.2, script_same ha hb h.2.2.1]) _ _ ht.inScripts hu.inScripts h2,
      flatMap_same (fun o : Output => Fits o.script) Output.toData _ (fun a b ha hb h => by
        simp only [Prod.mk.injEq] at h
        rw [Output.toData, Output.toData, h.1, script_same ha hb h.2]) _ _ ht.outScripts hu.outScripts h3]

theorem fits_ofOps (ops : List Op) (h : (opsData ops).length < 2 ^ 64) : Fits (Script.ofOps ops) := by
  have := opsSize_eq ops h
  exact ⟨this, by rw [Script.ofOps, this]; exact h⟩

theorem fit_copy {t : Tx} {n : Nat} {code : List Op} {f : UInt8} (hn : n < t.inputs.length) (h1 : t.inputs.length < 2 ^ 64)
    (h2 : t.outputs.length < 2 ^ 64) (ho : ∀ o ∈ t.outputs, Fits o.script) (hc : (opsData code).length < 2 ^ 64) :
    Fit (Spec.Sighash.copy t n code f) := by
  have hs : ∀ i ∈ t.inputs.mapIdx (fun k (i : Input) => ({ i with
      script := if k = n then Script.ofOps code else Spec.Sighash.emptyScript
      sequence := if k ≠ n ∧ (isNone f ∨ isSingle f) then 0 else i.sequence } : Input)), Fits i.script := by
    intro i hi
    obtain ⟨k, hk, rfl⟩ := List.mem_mapIdx.1 hi
    dsimp only
    split
    · exact fits_ofOps _ hc
    · exact fits_ofOps [] (by decide)
  unfold Spec.Sighash.copy
  refine ⟨?_, ?_, ?_, ?_⟩ <;> dsimp only
  · split
    · simp only [List.length_take, List.length_drop, List.length_mapIdx]; omega
    · simpa using h1
  · split
    · simp
    · split
      · simp [List.length_take]; omega
      · exact h2
  · split
    · intro i hi
      exact hs i (List.mem_of_mem_drop (List.mem_of_mem_take hi))
    · exact hs
  · split
    · simp
    · split
      · intro o ho'
        obtain ⟨k, hk, rfl⟩ := List.mem_mapIdx.1 ho'
        split
        · exact fits_ofOps [] (by decide)
        · exact ho _ (List.mem_of_mem_take (List.getElem_mem _))
      · exact ho

/-! ### The committed fields -/

section
variable (t : Tx) (n : Nat) (code : List Op) (f : UInt8)

/-- The fields of an input of the copy. -/
def copied (k : Nat) (i : Input) : Verif.Hash × UInt32 × Bytes × UInt32 :=
  (i.point.hash, i.point.index, if k = n then opsData code else [], if k ≠ n ∧ (isNone f ∨ isSingle f) then 0 else i.sequence)

theorem view_inputs (h : ¬ isAnyoneCanPay f) : (Spec.Sighash.view (Spec.Sighash.copy t n code f)).inputs = t.inputs.mapIdx (copied n code f) := by
  unfold Spec.Sighash.view Spec.Sighash.copy
  dsimp only
  rw [if_neg h]
  apply List.ext_getElem (by simp)
  intro k h1 h2
  simp only [List.getElem_map, List.getElem_mapIdx, copied]
  by_cases hk : k = n
  · rw [if_pos hk, if_pos hk]; rfl
  · rw [if_neg hk, if_neg hk]; rfl

theorem view_inputs_any (h : isAnyoneCanPay f) (hn : n < t.inputs.length) : (Spec.Sighash.view (Spec.Sighash.copy t n code f)).inputs =
    [(t.inputs[n].point.hash, t.inputs[n].point.index, opsData code, t.inputs[n].sequence)] := by
  unfold Spec.Sighash.view Spec.Sighash.copy
  dsimp only
  rw [if_pos h, mapIdx_split _ _ n hn]
  have hl : (t.inputs.take n).length = n := by rw [List.length_take]; omega
  rw [List.append_assoc, List.drop_append_of_le_length (by rw [List.length_mapIdx]; omega), List.drop_of_length_le (by rw [List.length_mapIdx]; omega)]
  simp only [List.nil_append, List.cons_append, List.take_succ_cons, List.take_zero, List.map_cons, List.map_nil, if_true, ne_eq,
    not_true, false_and, if_false]
  rfl

theorem view_outputs : (Spec.Sighash.view (Spec.Sighash.copy t n code f)).outputs =
    if isNone f then [] else if isSingle f then
      ((t.outputs.take (n + 1)).mapIdx fun k o => if k < n then Spec.Sighash.nullOut else o).map Spec.Sighash.outFields
    else t.outputs.map Spec.Sighash.outFields := by
  unfold Spec.Sighash.view Spec.Sighash.copy
  dsimp only
  split
  · rfl
  · split <;> rfl

end

/-- The `SINGLE` outputs: as many null ones as there are inputs before, and the output. -/
theorem single_outputs (l : List Output) (n : Nat) (h : n < l.length) :
    ((l.take (n + 1)).mapIdx fun k o => if k < n then Spec.Sighash.nullOut else o).map Spec.Sighash.outFields =
      List.replicate n (Spec.Sighash.outFields Spec.Sighash.nullOut) ++ [Spec.Sighash.outFields l[n]] := by
  apply List.ext_getElem?
  intro k
  rw [List.getElem?_map, List.getElem?_mapIdx, List.getElem?_take]
  by_cases h1 : k < n
  · rw [List.getElem?_append_left (by simpa using h1), List.getElem?_replicate, if_pos (by omega), if_pos h1,
      List.getElem?_eq_getElem (by omega)]
    simp [h1]
  · rw [List.getElem?_append_right (by simpa using Nat.le_of_not_lt h1), List.length_replicate]
    by_cases h2 : k = n
    · subst h2
      rw [if_pos (by omega), List.getElem?_eq_getElem h]
      simp
    · rw [if_neg (by omega), List.getElem?_eq_none (by simp; omega)]
      rfl

/-- The original message is the same exactly if the type is the same and the two signings agree in all that the type says is
signed (the code is not empty: of an empty code the position is not committed to). -/
theorem C39_original_iff (t₁ t₂ : Tx) (n₁ n₂ : Nat) (c₁ c₂ : List Op) (f₁ f₂ : UInt8)
    (hn₁ : n₁ < t₁.inputs.length) (hn₂ : n₂ < t₂.inputs.length)
    (ho₁ : isSingle f₁ → n₁ < t₁.outputs.length) (ho₂ : isSingle f₂ → n₂ < t₂.outputs.length)
    (hi₁ : t₁.inputs.length < 2 ^ 64) (hi₂ : t₂.inputs.length < 2 ^ 64) (hl₁ : t₁.outputs.length < 2 ^ 64) (hl₂ : t₂.outputs.length < 2 ^ 64)
    (hs₁ : ∀ o ∈ t₁.outputs, Fits o.script) (hs₂ : ∀ o ∈ t₂.outputs, Fits o.script)
    (hc₁ : (opsData c₁).length < 2 ^ 64) (hc₂ : (opsData c₂).length < 2 ^ 64) (hne : opsData c₁ ≠ []) :
    Spec.Sighash.original t₁ n₁ c₁ f₁ = Spec.Sighash.original t₂ n₂ c₂ f₂ ↔ f₁ = f₂ ∧ Spec.Sighash.Agree f₁ t₁ n₁ c₁ t₂ n₂ c₂ := by
  unfold Spec.Sighash.original
  have key := wire_view (x := writeU32 f₁.toUInt32) (y := writeU32 f₂.toUInt32) (fit_copy (f := f₁) hn₁ hi₁ hl₁ hs₁ hc₁) (fit_copy (f := f₂) hn₂ hi₂ hl₂ hs₂ hc₂)
  rw [key]
  have hflag : writeU32 f₁.toUInt32 = writeU32 f₂.toUInt32 ↔ f₁ = f₂ := by
    refine ⟨fun h => ?_, fun h => by rw [h]⟩
    have := (writeU32_prefix (a := f₁.toUInt32) (b := f₂.toUInt32) (x := []) (y := []) (by rw [h])).1
    have h2 := congrArg UInt32.toNat this
    rw [UInt8.toNat_toUInt32, UInt8.toNat_toUInt32] at h2
    exact UInt8.toNat_inj.1 h2
  rw [hflag]
  constructor
  · rintro ⟨hv, rfl⟩
    refine ⟨rfl, ?_⟩
    have hver := congrArg Spec.Sighash.View.version hv
    have hlock := congrArg Spec.Sighash.View.locktime hv
    have hin := congrArg Spec.Sighash.View.inputs hv
    have hout := congrArg Spec.Sighash.View.outputs hv
    rw [view_outputs, view_outputs] at hout
    have hall : ¬ isNone f₁ → ¬ isSingle f₁ → t₁.outputs.map Spec.Sighash.outFields = t₂.outputs.map Spec.Sighash.outFields := by
      intro h1 h2
      rwa [if_neg h1, if_neg h2, if_neg h1, if_neg h2] at hout
    have hsingle : isSingle f₁ → n₁ = n₂ ∧ (t₁.outputs[n₁]?).map Spec.Sighash.outFields = (t₂.outputs[n₂]?).map Spec.Sighash.outFields := by
      intro h1
      have h2 : ¬ isNone f₁ := fun h2 => by unfold isNone at h2; unfold isSingle at h1; omega
      have hb1 := ho₁ h1
      have hb2 := ho₂ h1
      rw [if_neg h2, if_pos h1, if_neg h2, if_pos h1, single_outputs _ _ hb1, single_outputs _ _ hb2] at hout
      have hlen : n₁ = n₂ := by simpa using congrArg List.length hout
      subst hlen
      have := List.append_inj_right hout (by simp)
      rw [List.getElem?_eq_getElem hb1, List.getElem?_eq_getElem hb2]
      simp only [List.cons.injEq, and_true] at this
      exact ⟨rfl, by simp [this]⟩
    by_cases ha : isAnyoneCanPay f₁
    · rw [view_inputs_any _ _ _ _ ha hn₁, view_inputs_any _ _ _ _ ha hn₂] at hin
      simp only [List.cons.injEq, Prod.mk.injEq, and_true] at hin
      obtain ⟨e1, e2, e3, e4⟩ := hin
      refine ⟨hver, hlock, e3, ?_, fun h => absurd ha h, fun h => absurd ha h, hall, hsingle⟩
      rw [List.getElem?_eq_getElem hn₁, List.getElem?_eq_getElem hn₂]
      simp [Spec.Sighash.outpoint, e1, e2, e4]
    · rw [view_inputs _ _ _ _ ha, view_inputs _ _ _ _ ha] at hin
      have hlen : t₁.inputs.length = t₂.inputs.length := by simpa using congrArg List.length hin
      have hk : ∀ k (h1 : k < t₁.inputs.length) (h2 : k < t₂.inputs.length),
          copied n₁ c₁ f₁ k t₁.inputs[k] = copied n₂ c₂ f₁ k t₂.inputs[k] := by
        intro k h1 h2
        have := congrArg (·[k]?) hin
        simp only [List.getElem?_mapIdx, List.getElem?_eq_getElem h1, List.getElem?_eq_getElem h2, Option.map_some, Option.some.injEq] at this
        exact this
      have hn := hk n₁ hn₁ (by omega)
      simp only [copied, Prod.mk.injEq, if_true] at hn
      have hnn : n₁ = n₂ := Classical.byContradiction fun hx => hne (by rw [hn.2.2.1, if_neg hx])
      subst hnn
      simp only [if_true, ne_eq, not_true, false_and, if_false] at hn
      have hpts : t₁.inputs.map Spec.Sighash.outpoint = t₂.inputs.map Spec.Sighash.outpoint := by
        apply List.ext_getElem (by simpa using hlen)
        intro k h1 h2
        simp only [List.length_map] at h1 h2
        have := hk k h1 h2
        simp only [copied, Prod.mk.injEq] at this
        simp only [List.getElem_map, Spec.Sighash.outpoint, this.1, this.2.1]
      refine ⟨hver, hlock, hn.2.2.1, ?_, fun _ => ⟨rfl, hpts⟩, ?_, hall, hsingle⟩
      · rw [List.getElem?_eq_getElem hn₁, List.getElem?_eq_getElem hn₂]
        simp [Spec.Sighash.outpoint, hn.1, hn.2.1, hn.2.2.2]
      · intro _ h1 h2
        apply List.ext_getElem (by simpa using hlen)
        intro k g1 g2
        simp only [List.length_map] at g1 g2
        have := hk k g1 g2
        have hno : ¬ (k ≠ n₁ ∧ (isNone f₁ ∨ isSingle f₁)) := fun h => h.2.elim h1 h2
        simp only [copied, Prod.mk.injEq, if_neg hno] at this
        simp only [List.getElem_map, this.2.2.2]
  · rintro ⟨rfl, h⟩
    refine ⟨?_, rfl⟩
    have hver : (Spec.Sighash.view (Spec.Sighash.copy t₁ n₁ c₁ f₁)).version = (Spec.Sighash.view (Spec.Sighash.copy t₂ n₂ c₂ f₁)).version := h.version
    have hlock : (Spec.Sighash.view (Spec.Sighash.copy t₁ n₁ c₁ f₁)).locktime = (Spec.Sighash.view (Spec.Sighash.copy t₂ n₂ c₂ f₁)).locktime := h.locktime
    have hown := h.own
    rw [List.getElem?_eq_getElem hn₁, List.getElem?_eq_getElem hn₂] at hown
    simp only [Option.map_some, Option.some.injEq, Prod.mk.injEq, Spec.Sighash.outpoint] at hown
    have hin : (Spec.Sighash.view (Spec.Sighash.copy t₁ n₁ c₁ f₁)).inputs = (Spec.Sighash.view (Spec.Sighash.copy t₂ n₂ c₂ f₁)).inputs := by
      by_cases ha : isAnyoneCanPay f₁
      · rw [view_inputs_any _ _ _ _ ha hn₁, view_inputs_any _ _ _ _ ha hn₂, hown.1.1, hown.1.2, hown.2, h.code]
      · rw [view_inputs _ _ _ _ ha, view_inputs _ _ _ _ ha]
        obtain ⟨hnn, hpts⟩ := h.inputs ha
        subst hnn
        have hlen : t₁.inputs.length = t₂.inputs.length := by simpa using congrArg List.length hpts
        apply List.ext_getElem (by simpa using hlen)
        intro k g1 g2
        simp only [List.length_mapIdx] at g1 g2
        simp only [List.getElem_mapIdx, copied, h.code]
        have hp := congrArg (·[k]?) hpts
        simp only [List.getElem?_map, List.getElem?_eq_getElem g1, List.getElem?_eq_getElem g2, Option.map_some, Option.some.injEq,
          Spec.Sighash.outpoint, Prod.mk.injEq] at hp
        rw [hp.1, hp.2]
        by_cases hz : k ≠ n₁ ∧ (isNone f₁ ∨ isSingle f₁)
        · rw [if_pos hz, if_pos hz]
        · rw [if_neg hz, if_neg hz]
          by_cases hkn : k = n₁
          · subst hkn; rw [hown.2]
          · have hno : ¬ (isNone f₁ ∨ isSingle f₁) := fun h => hz ⟨hkn, h⟩
            have hq := congrArg (·[k]?) (h.sequences ha (fun h => hno (Or.inl h)) (fun h => hno (Or.inr h)))
            simp only [List.getElem?_map, List.getElem?_eq_getElem g1, List.getElem?_eq_getElem g2, Option.map_some, Option.some.injEq] at hq
            rw [hq]
    have hout : (Spec.Sighash.view (Spec.Sighash.copy t₁ n₁ c₁ f₁)).outputs = (Spec.Sighash.view (Spec.Sighash.copy t₂ n₂ c₂ f₁)).outputs := by
      rw [view_outputs, view_outputs]
      by_cases h1 : isNone f₁
      · rw [if_pos h1, if_pos h1]
      · rw [if_neg h1, if_neg h1]
        by_cases h2 : isSingle f₁
        · obtain ⟨hnn, ho⟩ := h.single h2
          subst hnn
          rw [if_pos h2, if_pos h2, single_outputs _ _ (ho₁ h2), single_outputs _ _ (ho₂ h2)]
          rw [List.getElem?_eq_getElem (ho₁ h2), List.getElem?_eq_getElem (ho₂ h2)] at ho
          simp only [Option.map_some, Option.some.injEq] at ho
          rw [ho]
        · rw [if_neg h2, if_neg h2, h.outputs h1 h2]
    cases hv₁ : Spec.Sighash.view (Spec.Sighash.copy t₁ n₁ c₁ f₁)
    cases hv₂ : Spec.Sighash.view (Spec.Sighash.copy t₂ n₂ c₂ f₁)
    rw [hv₁, hv₂] at hver hlock hin hout
    dsimp only at hver hlock hin hout
    rw [hver, hlock, hin, hout]

/-! ### Caches -/

/-- What is cached was computed from the transaction and its previous outputs. -/
structure Warm (H : Bytes → Bytes) (t : Tx) (ps : List Prevout) (c : Cache) : Prop where
  x1 : ∀ b, c.x1 = some b → b = ⟨hashPoints H t, hashSequences H t, hashOutputs H t⟩
  x2 : ∀ b, c.x2 = some b → b = ⟨H (hashPoints H t), H (hashSequences H t), H (hashOutputs H t)⟩
  v1 : ∀ b, c.v1 = some b → b = (hashAmounts H ps, hashScripts H ps)

theorem warm_empty (H : Bytes → Bytes) (t : Tx) (ps : List Prevout) : Warm H t ps {} :=
  ⟨(fun _ h => nomatch h), (fun _ h => nomatch h), (fun _ h => nomatch h)⟩

theorem setX1_warm {H : Bytes → Bytes} {t : Tx} {ps : List Prevout} {c : Cache} (h : Warm H t ps c) :
    (setX1 H t c).1 = ⟨hashPoints H t, hashSequences H t, hashOutputs H t⟩ ∧ Warm H t ps (setX1 H t c).2 := by
  unfold setX1
  cases hc : c.x1 with
  | some b => exact ⟨h.x1 b hc, h⟩
  | none => exact ⟨rfl, (fun b hb => by cases hb; rfl), h.x2, h.v1⟩

theorem setX2_warm {H : Bytes → Bytes} {t : Tx} {ps : List Prevout} {c : Cache} (h : Warm H t ps c) :
    (setX2 H t c).1 = ⟨H (hashPoints H t), H (hashSequences H t), H (hashOutputs H t)⟩ ∧ Warm H t ps (setX2 H t c).2 := by
  unfold setX2
  cases hc : c.x2 with
  | some b => exact ⟨h.x2 b hc, h⟩
  | none =>
    obtain ⟨h1, h2⟩ := setX1_warm h
    dsimp only
    rw [h1]
    exact ⟨rfl, h2.x1, (fun b hb => by cases hb; rfl), h2.v1⟩

theorem setV1_warm {H : Bytes → Bytes} {t : Tx} {ps : List Prevout} {c : Cache} (h : Warm H t ps c) :
    (setV1 H ps c).1 = (hashAmounts H ps, hashScripts H ps) ∧ Warm H t ps (setV1 H ps c).2 := by
  unfold setV1
  cases hc : c.v1 with
  | some b => exact ⟨h.v1 b hc, h⟩
  | none => exact ⟨rfl, h.x1, h.x2, (fun b hb => by cases hb; rfl)⟩

theorem nullHash_eq : nullHash = Spec.Sighash.zeros := rfl

/-! ### BIP143 -/

/-- What is hashed for a version 0 program is the message of BIP143, whatever is cached. -/
theorem C39_v0 {H : Bytes → Bytes} {t : Tx} {ps : List Prevout} {c : Cache} (hc : Warm H t ps c) (n : Nat) (inp : Input)
    (hi : t.inputs[n]? = some inp) (hn : n < 2 ^ 32) (code : List Op) (amount : UInt64) (f : UInt8) :
    (preimage0 H t n code amount f c).1 = (Spec.Sighash.bip143 (fun x => H (H x)) t n inp code amount f).flatten ∧
    Warm H t ps (preimage0 H t n code amount f c).2 := by
  have hidx : inputIndex n = n := Nat.mod_eq_of_lt hn
  have hw0 : ∀ c, Warm H t ps c → (if (!isAnyone f) = true then ((setX2 H t c).1.points, (setX2 H t c).2) else (nullHash, c)).1 =
      (if isAnyoneCanPay f then Spec.Sighash.zeros else H (H (t.inputs.flatMap fun i => i.point.toData))) ∧
      Warm H t ps (if (!isAnyone f) = true then ((setX2 H t c).1.points, (setX2 H t c).2) else (nullHash, c)).2 := by
    intro c hc
    cases ha : isAnyone f with
    | true => rw [if_pos ((flags_iff f).2.2.1 ha)]; exact ⟨rfl, hc⟩
    | false =>
      have hna : ¬ isAnyoneCanPay f := fun h => by rw [(flags_iff f).2.2.2 h] at ha; cases ha
      obtain ⟨h1, h2⟩ := setX2_warm hc
      simp only [if_neg hna, Bool.not_false, if_true, h1]
      exact ⟨rfl, h2⟩
  have hw1 : ∀ c, Warm H t ps c → (if (!isAnyone f && (maskSighash f == .all)) = true then ((setX2 H t c).1.sequences, (setX2 H t c).2) else (nullHash, c)).1 =
      (if isAnyoneCanPay f ∨ isSingle f ∨ isNone f then Spec.Sighash.zeros else H (H (t.inputs.flatMap fun i => writeU32 i.sequence))) ∧
      Warm H t ps (if (!isAnyone f && (maskSighash f == .all)) = true then ((setX2 H t c).1.sequences, (setX2 H t c).2) else (nullHash, c)).2 := by
    intro c hc
    obtain ⟨h1, h2⟩ := setX2_warm hc
    cases ha : isAnyone f with
    | true => rw [if_pos (Or.inl ((flags_iff f).2.2.1 ha))]; exact ⟨rfl, hc⟩
    | false =>
      have hna : ¬ isAnyoneCanPay f := fun h => by rw [(flags_iff f).2.2.2 h] at ha; cases ha
      rcases flags_cases f with ⟨hm, g1, g2⟩ | ⟨hm, g1, g2⟩ | ⟨hm, g1, g2⟩
      · rw [hm, if_pos (Or.inr (Or.inl g1))]; exact ⟨rfl, hc⟩
      · rw [hm, if_pos (Or.inr (Or.inr g1))]; exact ⟨rfl, hc⟩
      · have hno : ¬ (isAnyoneCanPay f ∨ isSingle f ∨ isNone f) := fun h => h.elim hna (fun h => h.elim g2 g1)
        have : (!false && (Coverage.all == Coverage.all)) = true := rfl
        simp only [hm, if_neg hno, this, if_true, h1]
        exact ⟨rfl, h2⟩
  have hw2 : ∀ c, Warm H t ps c → (if (maskSighash f == .single) = true then (outputHashV0 H t n, c)
        else if (maskSighash f == .all) = true then ((setX2 H t c).1.outputs, (setX2 H t c).2) else (nullHash, c)).1 =
      (if isSingle f then (if h : n < t.outputs.length then H (H t.outputs[n].toData) else Spec.Sighash.zeros)
        else if isNone f then Spec.Sighash.zeros else H (H (t.outputs.flatMap Output.toData))) ∧
      Warm H t ps (if (maskSighash f == .single) = true then (outputHashV0 H t n, c)
        else if (maskSighash f == .all) = true then ((setX2 H t c).1.outputs, (setX2 H t c).2) else (nullHash, c)).2 := by
    intro c hc
    obtain ⟨h1, h2⟩ := setX2_warm hc
    rcases flags_cases f with ⟨hm, g1, g2⟩ | ⟨hm, g1, g2⟩ | ⟨hm, g1, g2⟩
    · rw [hm, if_pos g1]
      have : (Coverage.single == Coverage.single) = true := rfl
      simp only [this, if_true]
      refine ⟨?_, hc⟩
      unfold outputHashV0
      rw [hidx, outputOverflow]
      by_cases ho : t.outputs.length ≤ n
      · rw [if_pos (by simpa using ho), dif_neg (by omega)]; rfl
      · rw [if_neg (by simpa using ho), dif_pos (by omega), List.getElem?_eq_getElem (by omega)]
    · rw [hm, if_neg g2, if_pos g1]; exact ⟨rfl, hc⟩
    · rw [hm, if_neg g2, if_neg g1]
      have e1 : (Coverage.all == Coverage.single) = false := rfl
      have e2 : (Coverage.all == Coverage.all) = true := rfl
      simp only [e1, e2, Bool.false_eq_true, if_false, if_true, h1]
      exact ⟨rfl, h2⟩
  unfold preimage0
  dsimp only
  obtain ⟨a1, b1⟩ := hw0 c hc
  generalize (if (!isAnyone f) = true then ((setX2 H t c).1.points, (setX2 H t c).2) else (nullHash, c)) = r1 at a1 b1 ⊢
  obtain ⟨a2, b2⟩ := hw1 r1.2 b1
  generalize (if (!isAnyone f && (maskSighash f == .all)) = true then ((setX2 H t r1.2).1.sequences, (setX2 H t r1.2).2) else (nullHash, r1.2)) = r2 at a2 b2 ⊢
  obtain ⟨a3, b3⟩ := hw2 r2.2 b2
  generalize (if (maskSighash f == .single) = true then (outputHashV0 H t n, r2.2)
        else if (maskSighash f == .all) = true then ((setX2 H t r2.2).1.outputs, (setX2 H t r2.2).2) else (nullHash, r2.2)) = r3 at a3 b3 ⊢
  refine ⟨?_, b3⟩
  rw [a1, a2, a3, hi]
  simp only [Spec.Sighash.bip143, List.flatten_cons, List.flatten_nil, List.append_nil, List.append_assoc, subData_eq]

theorem fixed_prefix {a b x y : Bytes} {n : Nat} (ha : a.length = n) (hb : b.length = n) (h : a ++ x = b ++ y) : a = b ∧ x = y :=
  List.append_inj h (by rw [ha, hb])

theorem point_iff (a b : Point) : a.toData = b.toData ↔ a.hash = b.hash ∧ a.index = b.index := by
  constructor
  · intro h
    obtain ⟨h1, h2, -⟩ := point_prefix (a := a) (b := b) (x := []) (y := []) (by rw [h])
    exact ⟨h1, h2⟩
  · rintro ⟨h1, h2⟩; rw [Point.toData, Point.toData, h1, h2]

theorem flag_iff (f g : UInt8) : writeU32 f.toUInt32 = writeU32 g.toUInt32 ↔ f = g := by
  refine ⟨fun h => ?_, fun h => by rw [h]⟩
  have := (writeU32_prefix (a := f.toUInt32) (b := g.toUInt32) (x := []) (y := []) (by rw [h])).1
  have h2 := congrArg UInt32.toNat this
  rw [UInt8.toNat_toUInt32, UInt8.toNat_toUInt32] at h2
  exact UInt8.toNat_inj.1 h2

theorem zeros_length : Spec.Sighash.zeros.length = 32 := List.length_replicate ..

/-- The BIP143 message is the same exactly if the type is the same and the two signings agree in all that the type says is signed. -/
theorem C39_v0_iff (D : Bytes → Bytes) (hD : ∀ x, (D x).length = 32) (t₁ t₂ : Tx) (n₁ n₂ : Nat) (i₁ i₂ : Input) (c₁ c₂ : List Op)
    (a₁ a₂ : UInt64) (f₁ f₂ : UInt8) (hc₁ : (opsData c₁).length < 2 ^ 64) (hc₂ : (opsData c₂).length < 2 ^ 64) :
    (Spec.Sighash.bip143 D t₁ n₁ i₁ c₁ a₁ f₁).flatten = (Spec.Sighash.bip143 D t₂ n₂ i₂ c₂ a₂ f₂).flatten ↔
      f₁ = f₂ ∧ Spec.Sighash.Agree143 D f₁ t₁ n₁ i₁ c₁ a₁ t₂ n₂ i₂ c₂ a₂ := by
  have l2 : ∀ (t : Tx) f, (if isAnyoneCanPay f then Spec.Sighash.zeros else D (t.inputs.flatMap fun i => i.point.toData)).length = 32 := by
    intro t f; split
    · exact zeros_length
    · exact hD _
  have l3 : ∀ (t : Tx) f, (if isAnyoneCanPay f ∨ isSingle f ∨ isNone f then Spec.Sighash.zeros else D (t.inputs.flatMap fun i => writeU32 i.sequence)).length = 32 := by
    intro t f; split
    · exact zeros_length
    · exact hD _
  have single : ∀ (t : Tx) n, (if h : n < t.outputs.length then D t.outputs[n].toData else Spec.Sighash.zeros) =
      ((t.outputs[n]?).map fun o => D o.toData).getD Spec.Sighash.zeros := by
    intro t n
    by_cases h : n < t.outputs.length
    · rw [dif_pos h, List.getElem?_eq_getElem h]; rfl
    · rw [dif_neg h, List.getElem?_eq_none (by omega)]; rfl
  have l8 : ∀ (t : Tx) n f, (if isSingle f then (if h : n < t.outputs.length then D t.outputs[n].toData else Spec.Sighash.zeros)
      else if isNone f then Spec.Sighash.zeros else D (t.outputs.flatMap Output.toData)).length = 32 := by
    intro t n f
    split
    · split
      · exact hD _
      · exact zeros_length
    · split
      · exact zeros_length
      · exact hD _
  simp only [Spec.Sighash.bip143, List.flatten_cons, List.flatten_nil, List.append_nil]
  constructor
  · intro h
    obtain ⟨e1, h⟩ := writeU32_prefix h
    obtain ⟨e2, h⟩ := fixed_prefix (l2 _ _) (l2 _ _) h
    obtain ⟨e3, h⟩ := fixed_prefix (l3 _ _) (l3 _ _) h
    obtain ⟨e4, e5, h⟩ := point_prefix h
    obtain ⟨e6, h⟩ := script_prefix (fits_ofOps _ hc₁) (fits_ofOps _ hc₂) h
    obtain ⟨e7, h⟩ := writeU64_prefix h
    obtain ⟨e8, h⟩ := writeU32_prefix h
    obtain ⟨e9, h⟩ := fixed_prefix (l8 _ _ _) (l8 _ _ _) h
    obtain ⟨e10, h⟩ := writeU32_prefix h
    obtain rfl := (flag_iff _ _).1 h
    refine ⟨rfl, e1, e10, e6, e7, ⟨by rw [Spec.Sighash.outpoint, Spec.Sighash.outpoint, e4, e5], e8⟩, ?_, ?_, ?_, ?_⟩
    · intro h1; rwa [if_neg h1, if_neg h1] at e2
    · intro h1 h2 h3
      have : ¬ (isAnyoneCanPay f₁ ∨ isSingle f₁ ∨ isNone f₁) := fun h => h.elim h1 (fun h => h.elim h3 h2)
      rwa [if_neg this, if_neg this] at e3
    · intro h1 h2; rwa [if_neg h2, if_neg h1, if_neg h2, if_neg h1] at e9
    · intro h1; rwa [if_pos h1, if_pos h1, single, single] at e9
  · rintro ⟨rfl, h⟩
    have hp : i₁.point.toData = i₂.point.toData := (point_iff _ _).2 (by simpa [Spec.Sighash.outpoint] using h.own.1)
    have e2 : (if isAnyoneCanPay f₁ then Spec.Sighash.zeros else D (t₁.inputs.flatMap fun i => i.point.toData)) =
        (if isAnyoneCanPay f₁ then Spec.Sighash.zeros else D (t₂.inputs.flatMap fun i => i.point.toData)) := by
      split
      · rfl
      · exact h.outpoints ‹_›
    have e3 : (if isAnyoneCanPay f₁ ∨ isSingle f₁ ∨ isNone f₁ then Spec.Sighash.zeros else D (t₁.inputs.flatMap fun i => writeU32 i.sequence)) =
        (if isAnyoneCanPay f₁ ∨ isSingle f₁ ∨ isNone f₁ then Spec.Sighash.zeros else D (t₂.inputs.flatMap fun i => writeU32 i.sequence)) := by
      split
      · rfl
      · rename_i g
        exact h.sequences (fun h => g (Or.inl h)) (fun h => g (Or.inr (Or.inr h))) (fun h => g (Or.inr (Or.inl h)))
    rw [h.version, e2, e3, hp, h.amount, h.own.2, h.locktime,
      script_same (fits_ofOps _ hc₁) (fits_ofOps _ hc₂) h.code, single, single]
    congr 8
    split
    · rename_i g; rw [h.single g]
    · split
      · rfl
      · rename_i g1 g2; rw [h.outputs g2 g1]

/-! The hashed lists determine the lists. -/

/-- Self-delimiting codes of at least one byte. -/
theorem flatMap_determines {α β} (P : α → Prop) (enc : α → Bytes) (g : α → β) (hne : ∀ a, enc a ≠ [])
    (hp : ∀ a b x y, P a → P b → enc a ++ x = enc b ++ y → g a = g b ∧ x = y) : ∀ (l m : List α), (∀ a ∈ l, P a) → (∀ a ∈ m, P a) →
    l.flatMap enc = m.flatMap enc → l.map g = m.map g
  | [], [], _, _, _ => rfl
  | [], b :: m, _, _, h => absurd (show enc b = [] by simp at h; exact h.1) (hne b)
  | a :: l, [], _, _, h => absurd (show enc a = [] by simp at h; exact h.1) (hne a)
  | a :: l, b :: m, h1, h2, h => by
    simp only [List.flatMap_cons] at h
    obtain ⟨e1, e2⟩ := hp a b _ _ (h1 a (by simp)) (h2 b (by simp)) h
    rw [List.map_cons, List.map_cons, e1,
      flatMap_determines P enc g hne hp l m (fun a ha => h1 a (by simp [ha])) (fun a ha => h2 a (by simp [ha])) e2]

theorem point_length (a : Point) : a.toData.length = 36 := by
  rw [Point.toData, List.length_append, a.hash.len]; simp [writeU32, writeLE]

theorem u32_length (a : UInt32) : (writeU32 a).length = 4 := by simp [writeU32, writeLE]
theorem u64_length (a : UInt64) : (writeU64 a).length = 8 := by simp [writeU64, writeLE]

/-- What the messages have hashed is the same exactly for the same outpoints, sequences, outputs, amounts and scripts. -/
theorem C39_lists (t u : Tx) (s r : List Output)
    (ht : ∀ o ∈ t.outputs, Fits o.script) (hu : ∀ o ∈ u.outputs, Fits o.script) (hs : ∀ o ∈ s, Fits o.script) (hr : ∀ o ∈ r, Fits o.script) :
    ((t.inputs.flatMap fun i => i.point.toData) = (u.inputs.flatMap fun i => i.point.toData) ↔
      t.inputs.map Spec.Sighash.outpoint = u.inputs.map Spec.Sighash.outpoint) ∧
    ((t.inputs.flatMap fun i => writeU32 i.sequence) = (u.inputs.flatMap fun i => writeU32 i.sequence) ↔
      t.inputs.map Input.sequence = u.inputs.map Input.sequence) ∧
    (t.outputs.flatMap Output.toData = u.outputs.flatMap Output.toData ↔
      t.outputs.map Spec.Sighash.outFields = u.outputs.map Spec.Sighash.outFields) ∧
    ((s.flatMap fun o => writeU64 o.value) = (r.flatMap fun o => writeU64 o.value) ↔ s.map Output.value = r.map Output.value) ∧
    ((s.flatMap fun o => o.script.toData true) = (r.flatMap fun o => o.script.toData true) ↔
      s.map (fun o => opsData o.script.ops) = r.map (fun o => opsData o.script.ops)) := by
  have pt : ∀ a b : Input, Spec.Sighash.outpoint a = Spec.Sighash.outpoint b → a.point.toData = b.point.toData := by
    intro a b h; rw [point_iff]; simpa [Spec.Sighash.outpoint] using h
  have outp : ∀ (a b : Output) x y, Fits a.script → Fits b.script → a.toData ++ x = b.toData ++ y → Spec.Sighash.outFields a = Spec.Sighash.outFields b ∧ x = y := by
    intro a b x y ha hb h
    simp only [Output.toData, List.append_assoc] at h
    obtain ⟨g1, h⟩ := writeU64_prefix h
    obtain ⟨g2, h⟩ := script_prefix ha hb h
    exact ⟨by rw [Spec.Sighash.outFields, Spec.Sighash.outFields, g1, g2], h⟩
  have ne : ∀ b : Bytes, 0 < b.length → b ≠ [] := fun b h h' => by rw [h'] at h; simp at h
  refine ⟨⟨fun h => ?_, fun h => ?_⟩, ⟨fun h => ?_, fun h => ?_⟩, ⟨fun h => ?_, fun h => ?_⟩, ⟨fun h => ?_, fun h => ?_⟩, ⟨fun h => ?_, fun h => ?_⟩⟩
  · exact flatMap_determines (fun _ => True) (fun i : Input => i.point.toData) _ (fun a => ne _ (by rw [point_length]; omega)) (fun a b x y _ _ h => by
      obtain ⟨h1, h2, h3⟩ := point_prefix h
      exact ⟨by rw [Spec.Sighash.outpoint, Spec.Sighash.outpoint, h1, h2], h3⟩) _ _ (fun _ _ => trivial) (fun _ _ => trivial) h
  · rw [flatMap_same (fun _ => True) (fun i : Input => i.point.toData) _ (fun a b _ _ h => pt a b h) _ _ (fun _ _ => trivial) (fun _ _ => trivial) h]
  · exact flatMap_determines (fun _ => True) (fun i : Input => writeU32 i.sequence) _ (fun a => ne _ (by rw [u32_length]; omega)) (fun a b x y _ _ h =>
      writeU32_prefix h) _ _ (fun _ _ => trivial) (fun _ _ => trivial) h
  · rw [flatMap_same (fun _ => True) (fun i : Input => writeU32 i.sequence) _ (fun a b _ _ h => by rw [h]) _ _ (fun _ _ => trivial) (fun _ _ => trivial) h]
  · exact flatMap_determines (fun o : Output => Fits o.script) Output.toData _ (fun a => ne _ (by rw [Output.toData, List.length_append, u64_length]; omega))
      outp _ _ ht hu h
  · rw [flatMap_same (fun o : Output => Fits o.script) Output.toData Spec.Sighash.outFields (fun a b ha hb h => by
      simp only [Spec.Sighash.outFields, Prod.mk.injEq] at h
      rw [Output.toData, Output.toData, h.1, script_same ha hb h.2]) _ _ ht hu h]
  · exact flatMap_determines (fun _ => True) (fun o : Output => writeU64 o.value) _ (fun a => ne _ (by rw [u64_length]; omega)) (fun a b x y _ _ h =>
      writeU64_prefix h) _ _ (fun _ _ => trivial) (fun _ _ => trivial) h
  · rw [flatMap_same (fun _ => True) (fun o : Output => writeU64 o.value) _ (fun a b _ _ h => by rw [h]) _ _ (fun _ _ => trivial) (fun _ _ => trivial) h]
  · refine flatMap_determines (fun o : Output => Fits o.script) (fun o : Output => o.script.toData true) _ (fun a => ne _ ?_) (fun a b x y ha hb h =>
      script_prefix ha hb h) _ _ hs hr h
    simp only [Script.toData, Script.serializedSize, if_true, List.length_append]
    have : 0 < (writeVariable a.script.size).length := by unfold writeVariable; split <;> (try split) <;> (try split) <;> simp
    simp only [Bool.false_eq_true, if_false]
    omega
  · rw [flatMap_same (fun o : Output => Fits o.script) (fun o : Output => o.script.toData true) _ (fun a b ha hb h => script_same ha hb h) _ _ hs hr h]

/-! ### BIP341 -/

theorem annex_eq (w : Witness) : annex w = Spec.Sighash.annex w.stack := by
  unfold annex Spec.Sighash.annex
  rcases List.eq_nil_or_concat w.stack with h | ⟨l, b, h⟩
  · rw [h]; rfl
  · rw [List.concat_eq_append] at h
    rw [h, List.reverse_append, List.reverse_singleton, List.singleton_append, List.getLast?_append, List.length_append]
    rcases List.eq_nil_or_concat l with h' | ⟨l', b', h'⟩
    · subst h'
      rw [if_pos (by simp)]
      split
      · rename_i h1; simp at h1
      · rfl
    · subst h'
      rw [List.concat_eq_append, if_neg (by simp), List.reverse_append, List.reverse_singleton, List.singleton_append]
      simp only [List.getLast?_singleton, Option.some_or]
      cases b with
      | nil => rfl
      | cons x b =>
        simp only [List.head?_cons, Option.some.injEq]
        by_cases hx : x = 0x50
        · subst hx; rfl
        · rw [if_neg hx]
          split
          · rename_i h1
            simp only [List.cons.injEq] at h1
            exact absurd h1.1.1 hx
          · rfl

theorem spendType_eq (a b : Bool) : spendType a b = UInt8.ofNat ((if b then 1 else 0) * 2 + (if a then 1 else 0)) := by
  cases a <;> cases b <;> rfl

/-- The outputs that are spent. -/
def spent (ps : List Prevout) : List Output := ps.map fun p => { value := p.value, script := p.script }

/-- The offset of a script after the code separator at a position was executed (program_verify.ipp:134), or none was. -/
def offsetOf : Option Nat → Nat
  | none => 0
  | some p => p + 1

/-- The position as BIP342 has it. -/
def posOf : Option Nat → UInt32
  | none => 0xffffffff
  | some p => UInt32.ofNat p

theorem subscript_eq (ops : List Op) (sep : Option Nat) (h : ∀ p, sep = some p → p < ops.length) : subscriptV1 ops (offsetOf sep) = posOf sep := by
  unfold subscriptV1
  cases sep with
  | none => simp [offsetOf, posOf]
  | some p =>
    have := h p rfl
    have hne : ops.isEmpty = false := by cases ops with | nil => simp at this | cons => rfl
    rw [hne]
    rfl

theorem scriptData_zero (sc : Script) : scriptData sc 0 = sc.toData true := by
  simp [scriptData, Script.toData, Script.serializedSize]

/-- What is hashed for a version 1 program is the message of BIP341 and BIP342, whatever is cached; there is none exactly for `SINGLE`
without an output. The scripts of the previous outputs have not been left at an offset. -/
theorem C39_v1 {H : Bytes → Bytes} {t : Tx} {ps : List Prevout} {c : Cache} (hc : Warm H t ps c) (n : Nat) (inp : Input) (prev : Prevout)
    (hi : t.inputs[n]? = some inp) (hp : ps[n]? = some prev) (hn : n < 2 ^ 32) (hz : ∀ p ∈ ps, p.offset = 0)
    (ops : List Op) (sep : Option Nat) (hsep : ∀ p, sep = some p → p < ops.length) (leaf : Option Bytes) (f : UInt8) :
    (preimage1 H t ps false n ops (offsetOf sep) prev.value leaf f c).1 =
      (if isSingle f ∧ t.outputs.length ≤ n then none else
        some (Spec.Sighash.bip341 H t (spent ps) n inp { value := prev.value, script := prev.script } (leaf.map fun l => (l, posOf sep)) f).flatten) ∧
    Warm H t ps (preimage1 H t ps false n ops (offsetOf sep) prev.value leaf f c).2 := by
  have hidx : inputIndex n = n := Nat.mod_eq_of_lt hn
  have hz' : prev.offset = 0 := hz prev (List.mem_of_getElem? hp)
  have hamt : hashAmounts H ps = H ((spent ps).flatMap fun o => writeU64 o.value) := by
    rw [hashAmounts, spent, List.flatMap_map]
  have hscr : hashScripts H ps = H ((spent ps).flatMap fun o => o.script.toData true) := by
    rw [hashScripts, spent, List.flatMap_map]
    congr 1
    clear hp hamt hc
    induction ps with
    | nil => rfl
    | cons p ps ih =>
      rw [List.flatMap_cons, List.flatMap_cons, hz p (by simp), scriptData_zero, ih (fun p hp => hz p (by simp [hp]))]
  unfold preimage1
  rw [hi, hp]
  simp only [Bool.and_false, Bool.false_eq_true, if_false, hidx, hz', scriptData_zero, annex_eq, spendType_eq, subscript_eq _ _ hsep,
    Spec.Sighash.bip341, List.flatten_append, Option.isSome_map]
  obtain ⟨x1, x2⟩ := setX1_warm hc
  obtain ⟨v1, v2⟩ := setV1_warm x2
  obtain ⟨y1, y2⟩ := setX1_warm v2
  have eA : (Coverage.all == Coverage.single) = false := rfl
  have eB : (Coverage.none == Coverage.single) = false := rfl
  have eC : (Coverage.single == Coverage.single) = true := rfl
  have eD : (Coverage.all == Coverage.all) = true := rfl
  have eE : (Coverage.none == Coverage.all) = false := rfl
  have eF : (Coverage.single == Coverage.all) = false := rfl
  have hpos : isAnyone f = true → isAnyoneCanPay f := (flags_iff f).2.2.1
  have hneg : isAnyone f = false → ¬ isAnyoneCanPay f := fun ha h => by rw [(flags_iff f).2.2.2 h] at ha; cases ha
  rcases flags_cases f with ⟨hm, g1, g2⟩ | ⟨hm, g1, g2⟩ | ⟨hm, g1, g2⟩ <;> cases ha : isAnyone f <;>
    simp only [ha, hm, eA, eB, eC, eD, eE, eF, g1, g2, hneg, hpos, x1, v1, y1, hamt, hscr, Bool.not_false, Bool.not_true, if_true, if_false,
      Bool.true_and, Bool.false_and, Bool.false_eq_true, true_and, false_and, or_true, true_or, or_self, outputOverflow, decide_eq_true_eq]
  all_goals
    by_cases ho : t.outputs.length ≤ n
    · cases leaf <;> cases Spec.Sighash.annex inp.witness.stack <;>
        simp [ho, hashPoints, hashSequences, hashOutputs, annexHash, hc, x1, x2, v2, y2]
    · have ho' : n < t.outputs.length := by omega
      cases leaf <;> cases Spec.Sighash.annex inp.witness.stack <;>
        simp [ho, ho', hashPoints, hashSequences, hashOutputs, annexHash, hc, x1, x2, v2, y2]

theorem spend_iff (a b c d : Bool) : UInt8.ofNat ((if a then 1 else 0) * 2 + (if b then 1 else 0)) = UInt8.ofNat ((if c then 1 else 0) * 2 + (if d then 1 else 0)) ↔
    a = c ∧ b = d := by
  cases a <;> cases b <;> cases c <;> cases d <;> decide

/-- The BIP341 message is the same exactly if the type is the same and the two signings agree in all that the type says is signed. -/
theorem C39_v1_iff (S : Bytes → Bytes) (hS : ∀ x, (S x).length = 32) (t₁ t₂ : Tx) (s₁ s₂ : List Output) (n₁ n₂ : Nat) (i₁ i₂ : Input)
    (o₁ o₂ : Output) (l₁ l₂ : Option (Bytes × UInt32)) (f₁ f₂ : UInt8) (hl₁ : ∀ l ∈ l₁, l.1.length = 32) (hl₂ : ∀ l ∈ l₂, l.1.length = 32)
    (ho₁ : Fits o₁.script) (ho₂ : Fits o₂.script) (hs₁ : isSingle f₁ → n₁ < t₁.outputs.length) (hs₂ : isSingle f₂ → n₂ < t₂.outputs.length) :
    (Spec.Sighash.bip341 S t₁ s₁ n₁ i₁ o₁ l₁ f₁).flatten = (Spec.Sighash.bip341 S t₂ s₂ n₂ i₂ o₂ l₂ f₂).flatten ↔
      f₁ = f₂ ∧ Spec.Sighash.Agree341 S f₁ t₁ s₁ n₁ i₁ o₁ l₁ t₂ s₂ n₂ i₂ o₂ l₂ := by
  have leafs : ∀ (l₁ l₂ : Option (Bytes × UInt32)), (∀ l ∈ l₁, l.1.length = 32) → (∀ l ∈ l₂, l.1.length = 32) → l₁.isSome = l₂.isSome →
      ((match l₁ with | some (hash, pos) => [hash, [0], writeU32 pos] | none => [] : List Bytes)).flatten =
      ((match l₂ with | some (hash, pos) => [hash, [0], writeU32 pos] | none => [] : List Bytes)).flatten → l₁ = l₂ := by
    intro l₁ l₂ h1 h2 h3 h
    cases l₁ with
    | none => cases l₂ with
      | none => rfl
      | some => cases h3
    | some a => cases l₂ with
      | none => cases h3
      | some b =>
        obtain ⟨a, p⟩ := a
        obtain ⟨b, q⟩ := b
        simp only [List.flatten_cons, List.flatten_nil, List.append_nil] at h
        obtain ⟨e1, h⟩ := fixed_prefix (h1 _ rfl) (h2 _ rfl) h
        simp only [List.cons_append, List.nil_append, List.cons.injEq, true_and] at h
        obtain ⟨e2, -⟩ := writeU32_prefix (a := p) (b := q) (x := []) (y := []) (by rw [h])
        rw [show a = b from e1, e2]
  constructor
  · intro h
    simp only [Spec.Sighash.bip341, List.flatten_append, List.flatten_cons, List.flatten_nil, List.append_nil, List.append_assoc, List.cons_append,
      List.nil_append, List.cons.injEq, true_and] at h
    obtain ⟨rfl, h⟩ := h
    refine ⟨rfl, ?_⟩
    obtain ⟨e1, h⟩ := writeU32_prefix h
    obtain ⟨e2, h⟩ := writeU32_prefix h
    -- the hashes of the lists of inputs
    have hin : ∀ (x y : Bytes), ((if isAnyoneCanPay f₁ then [] else
          [S (t₁.inputs.flatMap fun i => i.point.toData), S (s₁.flatMap fun o => writeU64 o.value),
           S (s₁.flatMap fun o => o.script.toData true), S (t₁.inputs.flatMap fun i => writeU32 i.sequence)] : List Bytes).flatten ++ x =
        (if isAnyoneCanPay f₁ then [] else
          [S (t₂.inputs.flatMap fun i => i.point.toData), S (s₂.flatMap fun o => writeU64 o.value),
           S (s₂.flatMap fun o => o.script.toData true), S (t₂.inputs.flatMap fun i => writeU32 i.sequence)] : List Bytes).flatten ++ y) →
        (¬ isAnyoneCanPay f₁ →
          S (t₁.inputs.flatMap fun i => i.point.toData) = S (t₂.inputs.flatMap fun i => i.point.toData) ∧
          S (s₁.flatMap fun o => writeU64 o.value) = S (s₂.flatMap fun o => writeU64 o.value) ∧
          S (s₁.flatMap fun o => o.script.toData true) = S (s₂.flatMap fun o => o.script.toData true) ∧
          S (t₁.inputs.flatMap fun i => writeU32 i.sequence) = S (t₂.inputs.flatMap fun i => writeU32 i.sequence)) ∧ x = y := by
      intro x y h
      by_cases ha : isAnyoneCanPay f₁
      · rw [if_pos ha, if_pos ha] at h
        exact ⟨fun h => absurd ha h, h⟩
      · rw [if_neg ha, if_neg ha] at h
        simp only [List.flatten_cons, List.flatten_nil, List.append_nil, List.append_assoc] at h
        obtain ⟨g1, h⟩ := fixed_prefix (hS _) (hS _) h
        obtain ⟨g2, h⟩ := fixed_prefix (hS _) (hS _) h
        obtain ⟨g3, h⟩ := fixed_prefix (hS _) (hS _) h
        obtain ⟨g4, h⟩ := fixed_prefix (hS _) (hS _) h
        exact ⟨fun _ => ⟨g1, g2, g3, g4⟩, h⟩
    obtain ⟨e3, h⟩ := hin _ _ h
    have hout : ∀ (x y : Bytes), ((if isNone f₁ ∨ isSingle f₁ then [] else [S (t₁.outputs.flatMap Output.toData)] : List Bytes).flatten ++ x =
        (if isNone f₁ ∨ isSingle f₁ then [] else [S (t₂.outputs.flatMap Output.toData)] : List Bytes).flatten ++ y) →
        (¬ isNone f₁ → ¬ isSingle f₁ → S (t₁.outputs.flatMap Output.toData) = S (t₂.outputs.flatMap Output.toData)) ∧ x = y := by
      intro x y h
      by_cases ha : isNone f₁ ∨ isSingle f₁
      · rw [if_pos ha, if_pos ha] at h
        exact ⟨fun h1 h2 => absurd ha (fun h => h.elim h1 h2), h⟩
      · rw [if_neg ha, if_neg ha] at h
        simp only [List.flatten_cons, List.flatten_nil, List.append_nil] at h
        obtain ⟨g1, h⟩ := fixed_prefix (hS _) (hS _) h
        exact ⟨fun _ _ => g1, h⟩
    obtain ⟨e4, h⟩ := hout _ _ h
    simp only [List.cons.injEq, spend_iff] at h
    obtain ⟨⟨e5, e6⟩, h⟩ := h
    have hown : ∀ (x y : Bytes), ((if isAnyoneCanPay f₁ then [i₁.point.toData, writeU64 o₁.value, o₁.script.toData true, writeU32 i₁.sequence]
          else [writeU32 (UInt32.ofNat n₁)] : List Bytes).flatten ++ x =
        (if isAnyoneCanPay f₁ then [i₂.point.toData, writeU64 o₂.value, o₂.script.toData true, writeU32 i₂.sequence]
          else [writeU32 (UInt32.ofNat n₂)] : List Bytes).flatten ++ y) →
        (isAnyoneCanPay f₁ → Spec.Sighash.outpoint i₁ = Spec.Sighash.outpoint i₂ ∧ i₁.sequence = i₂.sequence ∧
          Spec.Sighash.outFields o₁ = Spec.Sighash.outFields o₂) ∧ (¬ isAnyoneCanPay f₁ → UInt32.ofNat n₁ = UInt32.ofNat n₂) ∧ x = y := by
      intro x y h
      by_cases ha : isAnyoneCanPay f₁
      · rw [if_pos ha, if_pos ha] at h
        simp only [List.flatten_cons, List.flatten_nil, List.append_nil, List.append_assoc] at h
        obtain ⟨g1, g2, h⟩ := point_prefix h
        obtain ⟨g3, h⟩ := writeU64_prefix h
        obtain ⟨g4, h⟩ := script_prefix ho₁ ho₂ h
        obtain ⟨g5, h⟩ := writeU32_prefix h
        refine ⟨fun _ => ⟨?_, g5, ?_⟩, fun h => absurd ha h, h⟩
        · rw [Spec.Sighash.outpoint, Spec.Sighash.outpoint, g1, g2]
        · rw [Spec.Sighash.outFields, Spec.Sighash.outFields, g3, g4]
      · rw [if_neg ha, if_neg ha] at h
        simp only [List.flatten_cons, List.flatten_nil, List.append_nil] at h
        obtain ⟨g1, h⟩ := writeU32_prefix h
        exact ⟨fun h => absurd h ha, fun _ => g1, h⟩
    obtain ⟨e7, e8, h⟩ := hown _ _ h
    have hann : ∀ (a b : Option Bytes) (x y : Bytes), a.isSome = b.isSome →
        ((match a with | some a => [S (writeVariable a.length ++ a)] | none => [] : List Bytes)).flatten ++ x =
        ((match b with | some a => [S (writeVariable a.length ++ a)] | none => [] : List Bytes)).flatten ++ y →
        a.map (fun a => S (writeVariable a.length ++ a)) = b.map (fun a => S (writeVariable a.length ++ a)) ∧ x = y := by
      intro a b x y h1 h
      cases a with
      | none => cases b with
        | none => exact ⟨rfl, h⟩
        | some => cases h1
      | some a => cases b with
        | none => cases h1
        | some b =>
          simp only [List.flatten_cons, List.flatten_nil, List.append_nil] at h
          obtain ⟨g1, h⟩ := fixed_prefix (hS _) (hS _) h
          exact ⟨congrArg some g1, h⟩
    obtain ⟨e9, h⟩ := hann _ _ _ _ e6 h
    have hsing : ∀ (x y : Bytes), ((if isSingle f₁ then (if h : n₁ < t₁.outputs.length then [S t₁.outputs[n₁].toData] else []) else [] : List Bytes).flatten ++ x =
        (if isSingle f₁ then (if h : n₂ < t₂.outputs.length then [S t₂.outputs[n₂].toData] else []) else [] : List Bytes).flatten ++ y) →
        (isSingle f₁ → (t₁.outputs[n₁]?).map (fun o => S o.toData) = (t₂.outputs[n₂]?).map (fun o => S o.toData)) ∧ x = y := by
      intro x y h
      by_cases ha : isSingle f₁
      · rw [if_pos ha, if_pos ha, dif_pos (hs₁ ha), dif_pos (hs₂ ha)] at h
        simp only [List.flatten_cons, List.flatten_nil, List.append_nil] at h
        obtain ⟨g1, h⟩ := fixed_prefix (hS _) (hS _) h
        refine ⟨fun _ => ?_, h⟩
        rw [List.getElem?_eq_getElem (hs₁ ha), List.getElem?_eq_getElem (hs₂ ha), Option.map_some, Option.map_some, g1]
      · rw [if_neg ha, if_neg ha] at h
        exact ⟨fun h => absurd h ha, h⟩
    obtain ⟨e10, h⟩ := hsing _ _ h
    have e11 := leafs _ _ hl₁ hl₂ e5 h
    exact ⟨e1, e2, e11, e9, e7, fun ha => ⟨e8 ha, e3 ha⟩, e4, e10⟩
  · rintro ⟨rfl, h⟩
    congr 1
    obtain rfl := h.leaf
    unfold Spec.Sighash.bip341
    have hsome : (Spec.Sighash.annex i₁.witness.stack).isSome = (Spec.Sighash.annex i₂.witness.stack).isSome := by
      simpa using congrArg Option.isSome h.annex
    have hann : (match Spec.Sighash.annex i₁.witness.stack with | some a => [S (writeVariable a.length ++ a)] | none => [] : List Bytes) =
        (match Spec.Sighash.annex i₂.witness.stack with | some a => [S (writeVariable a.length ++ a)] | none => [] : List Bytes) := by
      have := h.annex
      cases h1 : Spec.Sighash.annex i₁.witness.stack <;> cases h2 : Spec.Sighash.annex i₂.witness.stack <;> rw [h1, h2] at this <;> simp at this ⊢
      exact this
    have hsing : (if isSingle f₁ then (if h : n₁ < t₁.outputs.length then [S t₁.outputs[n₁].toData] else []) else [] : List Bytes) =
        (if isSingle f₁ then (if h : n₂ < t₂.outputs.length then [S t₂.outputs[n₂].toData] else []) else [] : List Bytes) := by
      by_cases ha : isSingle f₁
      · have := h.single ha
        rw [List.getElem?_eq_getElem (hs₁ ha), List.getElem?_eq_getElem (hs₂ ha), Option.map_some, Option.map_some, Option.some.injEq] at this
        rw [if_pos ha, if_pos ha, dif_pos (hs₁ ha), dif_pos (hs₂ ha), this]
      · rw [if_neg ha, if_neg ha]
    have hout : (if isNone f₁ ∨ isSingle f₁ then [] else [S (t₁.outputs.flatMap Output.toData)] : List Bytes) =
        (if isNone f₁ ∨ isSingle f₁ then [] else [S (t₂.outputs.flatMap Output.toData)] : List Bytes) := by
      by_cases ha : isNone f₁ ∨ isSingle f₁
      · rw [if_pos ha, if_pos ha]
      · rw [if_neg ha, if_neg ha, h.outputs (fun h => ha (Or.inl h)) (fun h => ha (Or.inr h))]
    rw [hsing, hout, hsome, h.version, h.locktime]
    by_cases ha : isAnyoneCanPay f₁
    · obtain ⟨g1, g2, g3⟩ := h.own ha
      simp only [Spec.Sighash.outFields, Prod.mk.injEq] at g3
      rw [if_pos ha, if_pos ha, if_pos ha, if_pos ha, g2, g3.1, script_same ho₁ ho₂ g3.2,
        (point_iff _ _).2 (by simpa [Spec.Sighash.outpoint] using g1)]
      congr 3
    · obtain ⟨g1, g2, g3, g4, g5⟩ := h.inputs ha
      rw [if_neg ha, if_neg ha, if_neg ha, if_neg ha, g1, g2, g3, g4, g5]
      congr 3

/-! ### Histories -/

/-- The call is one the interpreter makes: an input with a 32 bit position, its previous output and value, and in a version 1 script the
offset after the last executed code separator. -/
structure Made (t : Tx) (ps : List Prevout) (k : Call) (inp : Input) (prev : Prevout) (sep : Option Nat) : Prop where
  input : t.inputs[k.input]? = some inp
  previous : ps[k.input]? = some prev
  value : k.value = prev.value
  small : k.input < 2 ^ 32
  offset : k.offset = offsetOf sep
  sep : ∀ p, sep = some p → p < k.ops.length

/-- What is signed: BIP143 for a version 0 program and BIP341/BIP342 for a version 1 program if the rules are active, and the original
message otherwise. `S` is SHA-256, `T` the hash tagged "TapSighash". -/
def expected (S T : Bytes → Bytes) (t : Tx) (s : List Output) (k : Call) (inp : Input) (own : Output) (sep : Option Nat) : Option Bytes :=
  if k.version = .segwit ∧ k.bip143 = true then
    some (S (S (Spec.Sighash.bip143 (fun x => S (S x)) t k.input inp (k.ops.drop k.offset) k.value k.sighashFlags).flatten))
  else if k.version = .taproot ∧ k.bip342 = true then
    if isSingle k.sighashFlags ∧ t.outputs.length ≤ k.input then none
    else some (T (Spec.Sighash.bip341 S t s k.input inp own (k.leaf.map fun l => (l, posOf sep)) k.sighashFlags).flatten)
  else if isSingle k.sighashFlags ∧ t.outputs.length ≤ k.input then some oneHash
  else some (S (S (Spec.Sighash.original t k.input (k.ops.drop k.offset) k.sighashFlags)))

theorem signature_hash_warm {S T : Bytes → Bytes} {t : Tx} {ps : List Prevout} {c : Cache} (hc : Warm S t ps c) (hz : ∀ p ∈ ps, p.offset = 0)
    (k : Call) (inp : Input) (prev : Prevout) (sep : Option Nat) (hk : Made t ps k inp prev sep) :
    (signatureHash S T t ps k c).1 = expected S T t (spent ps) k inp { value := prev.value, script := prev.script } sep ∧
    Warm S t ps (signatureHash S T t ps k c).2 := by
  obtain ⟨h1, h2, h3, h4, h5, h6⟩ := hk
  unfold signatureHash expected
  by_cases g1 : k.version = .segwit ∧ k.bip143 = true
  · rw [if_pos (by rw [g1.1, g1.2]; rfl), if_pos g1]
    obtain ⟨a, b⟩ := C39_v0 hc k.input inp h1 h4 (k.ops.drop k.offset) k.value k.sighashFlags
    exact ⟨by simp only [a], b⟩
  · have e1 : ¬ ((k.bip143 && k.version == .segwit) = true) := by
      intro h; simp only [Bool.and_eq_true, beq_iff_eq] at h; exact g1 ⟨h.2, h.1⟩
    rw [if_neg e1, if_neg g1]
    by_cases g2 : k.version = .taproot ∧ k.bip342 = true
    · rw [if_pos (by rw [g2.1, g2.2]; rfl), if_pos g2]
      obtain ⟨a, b⟩ := C39_v1 hc k.input inp prev h1 h2 h4 hz k.ops sep h6 k.leaf k.sighashFlags
      rw [h3, h5]
      refine ⟨?_, b⟩
      simp only [a]
      split <;> rfl
    · have e2 : ¬ ((k.bip342 && k.version == .taproot) = true) := by
        intro h; simp only [Bool.and_eq_true, beq_iff_eq] at h; exact g2 ⟨h.2, h.1⟩
      rw [if_neg e2, if_neg g2]
      have hlt : k.input < t.inputs.length := by
        by_cases h : k.input < t.inputs.length
        · exact h
        · rw [List.getElem?_eq_none (by omega)] at h1; cases h1
      rw [C39_original S t k.input _ _ hlt h4]
      refine ⟨?_, hc⟩
      split <;> rfl

/-- Whatever signature hashes of a transaction were computed before, each is of what its type, version and the active rules say. -/
theorem C39_signature_hash (S T : Bytes → Bytes) (t : Tx) (ps : List Prevout) (hz : ∀ p ∈ ps, p.offset = 0)
    (ks : List (Call × Input × Prevout × Option Nat)) (hk : ∀ k ∈ ks, Made t ps k.1 k.2.1 k.2.2.1 k.2.2.2) :
    (signatureHashes S T t ps (ks.map (·.1)) {}).1 =
      ks.map fun k => expected S T t (spent ps) k.1 k.2.1 { value := k.2.2.1.value, script := k.2.2.1.script } k.2.2.2 := by
  have : ∀ (ks : List (Call × Input × Prevout × Option Nat)) (c : Cache), Warm S t ps c → (∀ k ∈ ks, Made t ps k.1 k.2.1 k.2.2.1 k.2.2.2) →
      (signatureHashes S T t ps (ks.map (·.1)) c).1 =
      ks.map fun k => expected S T t (spent ps) k.1 k.2.1 { value := k.2.2.1.value, script := k.2.2.1.script } k.2.2.2 := by
    intro ks
    induction ks with
    | nil => intros; rfl
    | cons k ks ih =>
      intro c hc hk
      obtain ⟨h1, h2⟩ := signature_hash_warm (T := T) hc hz k.1 k.2.1 k.2.2.1 k.2.2.2 (hk k (by simp))
      rw [List.map_cons, List.map_cons, signatureHashes]
      dsimp only
      rw [h1, ih _ h2 (fun k hk' => hk k (by simp [hk']))]
  exact this ks {} (warm_empty S t ps) hk

/-! ### The offset a script is left at -/

/-- A previous output script: a code separator and one. -/
def separated : List Op := [Verif.Machine.opc 171, Verif.Machine.opc 81]

/-- Evaluation of the script succeeds and leaves its offset after the separator. -/
theorem separated_left : (Verif.Machine.run (Verif.Machine.toyEnv {} separated) (Verif.Machine.start ([] : List Verif.Machine.Val) 1)).map
    (fun p => (p.1, p.2.offset)) = some (none, 1) := by
  decide +kernel

/-- The scripts of the previous outputs hashed by BIP341, after the first input was verified (its previous output script is left at the
offset above) are not those of the outputs: their serialisation is truncated. So the hash of a version 1 input of the same transaction
is not that of BIP341. -/
theorem C39_offset_counterexample (S : Bytes → Bytes) (other : Prevout) (ho : other.offset = 0) :
    let before : Prevout := { value := 1, script := Script.ofOps separated, offset := 0 }
    let after : Prevout := { before with offset := 1 }
    hashScripts S [before, other] = S ([2, 0xab, 0x51] ++ other.script.toData true) ∧
    hashScripts S [after, other] = S ([1, 0x51] ++ other.script.toData true) := by
  have h0 : scriptData (Script.ofOps separated) 0 = [2, 0xab, 0x51] := by decide +kernel
  have h1 : scriptData (Script.ofOps separated) 1 = [1, 0x51] := by decide +kernel
  constructor <;> simp [hashScripts, h0, h1, ho, scriptData_zero]

/-- The signed position of the input is not part of the original message if the code is empty. -/
theorem C39_empty_code_counterexample :
    let inp : Input := { point := { hash := Verif.nullHash, index := 7 }, script := Script.ofOps [], witness := Witness.ofStack [], sequence := 3 }
    let t : Tx := Tx.make 2 [inp, inp] [{ value := 5, script := Script.ofOps [] }] 9
    Spec.Sighash.original t 0 [] 1 = Spec.Sighash.original t 1 [] 1 := by
  decide +kernel

/-! ### Examples -/

/-- Two inputs, two outputs. -/
def demoTx : Tx :=
  Tx.make 2 [{ point := { hash := Verif.nullHash, index := 7 }, script := Script.ofOps [{ code := 2, data := [5, 6] }], witness := Witness.ofStack [[1], [0x50, 1]], sequence := 3 },
      { point := { hash := Verif.nullHash, index := 8 }, script := Script.ofOps [], witness := Witness.ofStack [], sequence := 4 }]
    [{ value := 5000, script := Script.ofOps [{ code := 172 }] }, { value := 6000, script := Script.ofOps [{ code := 81 }] }] 9

def demoPrevouts : List Prevout :=
  [{ value := 7000, script := Script.ofOps [{ code := 81 }], offset := 0 }, { value := 8000, script := Script.ofOps [{ code := 82 }], offset := 0 }]

def demoCall (v : Version) (f : UInt8) (n : Nat) (value : UInt64) : Call :=
  { input := n, ops := [{ code := 171 }, { code := 172 }], offset := 1, value := value, leaf := some (List.replicate 32 7), version := v,
    sighashFlags := f, bip143 := true, bip342 := true }

/-- A history of five calls of all versions, and the previous outputs are not at an offset. -/
example : ∃ ks : List (Call × Input × Prevout × Option Nat), ks.length = 5 ∧ (∀ k ∈ ks, Made demoTx demoPrevouts k.1 k.2.1 k.2.2.1 k.2.2.2) ∧
    (∀ p ∈ demoPrevouts, p.offset = 0) ∧
    ((signatureHashes id id demoTx demoPrevouts (ks.map (·.1)) {}).1.map Option.isSome = [true, true, true, true, true]) ∧
    (signatureHashes id id demoTx demoPrevouts (ks.map (·.1)) {}).2.v1.isSome = true := by
  refine ⟨[(demoCall .taproot 1 0 7000, demoTx.inputs[0], demoPrevouts[0], some 0), (demoCall .segwit 0x83 1 8000, demoTx.inputs[1], demoPrevouts[1], some 0),
    (demoCall .taproot 0x82 1 8000, demoTx.inputs[1], demoPrevouts[1], some 0), (demoCall .segwit 1 0 7000, demoTx.inputs[0], demoPrevouts[0], some 0),
    (demoCall .unversioned 3 1 8000, demoTx.inputs[1], demoPrevouts[1], some 0)], rfl, ?_, ?_, by decide +kernel, by decide +kernel⟩
  · simp only [List.mem_cons, List.not_mem_nil, or_false, forall_eq_or_imp, forall_eq]
    refine ⟨?_, ?_, ?_, ?_, ?_⟩ <;> exact ⟨rfl, rfl, rfl, by decide, rfl, fun p h => by cases h; decide⟩
  · intro p hp
    simp only [demoPrevouts, List.mem_cons, List.not_mem_nil, or_false] at hp
    rcases hp with rfl | rfl <;> rfl

/-- The conditions of the equivalences are met, and `SINGLE` without the output is refused by version 1 only. -/
example : (∀ o ∈ demoTx.outputs, Fits o.script) ∧ (1 < demoTx.outputs.length) ∧ opsData [({ code := 172 } : Op)] ≠ [] ∧
    expected id id { demoTx with outputs := demoTx.outputs.take 1 } (spent demoPrevouts) (demoCall .taproot 3 1 8000) demoTx.inputs[1] (spent demoPrevouts)[1] (some 0) = none ∧
    expected id id { demoTx with outputs := demoTx.outputs.take 1 } (spent demoPrevouts) (demoCall .unversioned 3 1 8000) demoTx.inputs[1] (spent demoPrevouts)[1] (some 0) = some oneHash := by
  refine ⟨?_, by decide, by decide, by decide +kernel, by decide +kernel⟩
  intro o ho
  simp only [demoTx, Tx.make, List.mem_cons, List.not_mem_nil, or_false] at ho
  rcases ho with rfl | rfl <;> exact fits_ofOps _ (by decide)

end Verif.Sighash
