import Verif.Model.Patterns
import Verif.Spec.Patterns
import Verif.Lemmas.Connect
import Verif.Props.Number
import Verif.Props.Der
/-!
# C64: script patterns are the standard forms
-/
namespace Verif.Pattern
open Verif Verif.Ec Verif.Spec.Form
open Verif.Machine (opcodeFromSize)

/-! ## Operations and their bytes -/

theorem push_to {o : Op} (h : o.Consistent) (hc : o.code ≤ 78) : Pushes o.toData o.data := by
  have hf := h.fits
  have hb := h.bound
  unfold Op.toData
  rw [h.notUnder]
  simp only [Bool.false_eq_true, if_false]
  unfold SizeFits at hf
  by_cases h76 : o.code = 76
  · rw [if_pos h76] at hf; rw [if_pos h76, h76]; exact .one _ hf
  rw [if_neg h76] at hf ⊢
  by_cases h77 : o.code = 77
  · rw [if_pos h77] at hf; rw [if_pos h77, h77]; exact .two _ hf
  rw [if_neg h77] at hf ⊢
  by_cases h78 : o.code = 78
  · rw [if_pos h78, h78]; exact .four _ hb
  rw [if_neg h78] at hf ⊢
  have h75 : o.code ≤ 75 := by
    have e : ∀ c : UInt8, c ≤ 78 → c ≠ 76 → c ≠ 77 → c ≠ 78 → c ≤ 75 := by
      intro c; revert c; exact Der.byte_forall (by decide +kernel)
    exact e _ hc h76 h77 h78
  rw [if_pos h75] at hf
  have hl : o.data.length ≤ 75 := by rw [hf]; exact UInt8.le_iff_toNat_le.1 h75
  have := Pushes.direct o.data hl
  rw [hf] at this
  simpa using this

theorem push_of {e d : Bytes} (h : Pushes e d) : ∃ o : Op, o.Consistent ∧ o.toData = e ∧ o.data = d ∧ o.code ≤ 78 := by
  cases h with
  | direct _ h =>
    refine ⟨{ code := UInt8.ofNat d.length, data := d }, direct_consistent d h, ?_, rfl, ?_⟩
    · have := (consistent_small (direct_consistent d h) (by
        rw [UInt8.le_iff_toNat_le]; simp; show _ ≤ 75; omega)).2
      exact this
    · rw [UInt8.le_iff_toNat_le]; simp; show _ ≤ 78; omega
  | one _ h => exact ⟨{ code := 76, data := d }, ⟨rfl, by simpa [SizeFits] using h, by show _ ≤ 4000000; show d.length ≤ _; omega⟩, rfl, rfl, (by decide : (76 : UInt8) ≤ 78)⟩
  | two _ h => exact ⟨{ code := 77, data := d }, ⟨rfl, by simpa [SizeFits] using h, by show _ ≤ 4000000; show d.length ≤ _; omega⟩, rfl, rfl, (by decide : (77 : UInt8) ≤ 78)⟩
  | four _ h => exact ⟨{ code := 78, data := d }, ⟨rfl, by simp [SizeFits]; omega, h⟩, rfl, rfl, (by decide : (78 : UInt8) ≤ 78)⟩

theorem code_of_data {o : Op} (h : o.Consistent) (hd : o.data ≠ []) : o.code ≤ 78 := by
  by_cases hc : 79 ≤ o.code
  · exact absurd (consistent_large h hc).1 hd
  · rw [UInt8.le_iff_toNat_le] at hc ⊢
    have : ¬ 79 ≤ o.code.toNat := hc
    show _ ≤ 78
    omega

theorem whole_to {o : Op} (h : o.Consistent) : Whole o.toData := by
  by_cases hc : 79 ≤ o.code
  · exact .inr ⟨_, hc, (consistent_large h hc).2⟩
  · refine .inl ⟨_, push_to h ?_⟩
    rw [UInt8.le_iff_toNat_le] at hc ⊢
    have : ¬ 79 ≤ o.code.toNat := hc
    show _ ≤ 78
    omega

theorem whole_of {e : Bytes} (h : Whole e) : ∃ o : Op, o.Consistent ∧ o.toData = e := by
  rcases h with ⟨d, h⟩ | ⟨c, hc, rfl⟩
  · obtain ⟨o, h1, h2, -⟩ := push_of h; exact ⟨o, h1, h2⟩
  · exact ⟨{ code := c }, plain_consistent c hc, (consistent_large (plain_consistent c hc) hc).2⟩

theorem isPublicKey_iff (k : Bytes) : isPublicKey k = true ↔ PublicKey k := by
  unfold isPublicKey isCompressedKey isUncompressedKey PublicKey
  simp
theorem isEndorsement_iff (k : Bytes) : isEndorsement k = true ↔ Endorsement k := by
  unfold isEndorsement Endorsement
  simp

/-- What parses to the operations, given their bytes. -/
theorem parse_is {b : Bytes} (hl : b.length < 2 ^ 63) {ops : List Op} (hc : ∀ o ∈ ops, o.Consistent) (h : opsData ops = b) :
    parseOps b = ops :=
  opsOK_injective (parseOps_ok hl) (Machine.opsOK_of _ hc) (by rw [parseOps_data hl]; exact hl) ((parseOps_data hl).trans h.symm)

/-- Every operation but the last is whole. -/
theorem OpsOK_init {ops : List Op} (h : OpsOK ops) : ∀ p q, ops = p ++ q → q ≠ [] → ∀ o ∈ p, o.Consistent := by
  induction h with
  | nil => intro p q e hq; simp at e; exact absurd e.2 hq
  | under d hne h =>
    intro p q e hq
    cases p with
    | nil => simp
    | cons x p => injection e with _ e2; simp at e2; exact absurd e2.2 hq
  | cons o os h t ih =>
    intro p q e hq
    cases p with
    | nil => simp
    | cons x p =>
      injection e with e1 e2
      subst e1
      intro y hy
      rcases List.mem_cons.1 hy with rfl | hy
      · exact h
      · exact ih p q e2 hq y hy

/-! ## The outputs -/

theorem opsData_append (a c : List Op) : opsData (a ++ c) = opsData a ++ opsData c := by simp [opsData]
theorem opsData_cons (a : Op) (c : List Op) : opsData (a :: c) = a.toData ++ opsData c := by simp [opsData]
theorem opsData_nil : opsData [] = [] := rfl

theorem plain {c : UInt8} (h : 79 ≤ c) {o : Op} (ho : o.Consistent) (hc : o.code = c) : o.toData = [c] := by
  rw [← hc]; exact (consistent_large ho (hc ▸ h)).2
theorem plain' (c : UInt8) (h : 79 ≤ c) : Op.toData { code := c } = [c] := (consistent_large (plain_consistent c h) h).2

variable {b : Bytes} (hl : b.length < 2 ^ 63)
include hl

theorem payKeyHash_iff : payKeyHashPattern (parseOps b) = true ↔ PayKeyHash b := by
  constructor
  · intro h
    have hok := parseOps_ok hl
    have hd := parseOps_data hl
    generalize parseOps b = ops at *
    unfold payKeyHashPattern at h
    split at h
    case h_2 => cases h
    rename_i x1 x2 x3 x4 x5
    simp only [Bool.and_eq_true, beq_iff_eq] at h
    obtain ⟨⟨⟨⟨h1, h2⟩, h3⟩, h4⟩, h5⟩ := h
    have hi := OpsOK_init hok [x1, x2, x3, x4] [x5] rfl (by simp)
    have c5 := hok.consistent_of_code x5 (by simp) (by rw [h5]; decide)
    refine ⟨x3.data, x3.toData, h3, push_to (hi x3 (by simp)) (code_of_data (hi x3 (by simp)) (by intro e; rw [e] at h3; cases h3)), ?_⟩
    rw [← hd]
    simp only [opsData_cons, opsData_nil]
    rw [plain (by decide) (hi x1 (by simp)) h1, plain (by decide) (hi x2 (by simp)) h2, plain (by decide) (hi x4 (by simp)) h4,
      plain (by decide) c5 h5]
    simp
  · rintro ⟨h, e, h1, h2, h3⟩
    obtain ⟨o, o1, o2, o3, -⟩ := push_of h2
    have : parseOps b = [{ code := 118 }, { code := 169 }, o, { code := 136 }, { code := 172 }] := by
      refine parse_is hl ?_ ?_
      · intro x hx
        simp only [List.mem_cons, List.not_mem_nil, or_false] at hx
        rcases hx with rfl | rfl | rfl | rfl | rfl
        · exact plain_consistent _ (by decide)
        · exact plain_consistent _ (by decide)
        · exact o1
        · exact plain_consistent _ (by decide)
        · exact plain_consistent _ (by decide)
      · simp only [opsData_cons, opsData_nil, o2, h3, plain' 118 (by decide), plain' 169 (by decide), plain' 136 (by decide), plain' 172 (by decide)]
        simp
    rw [this]
    simp [payKeyHashPattern, o3, h1]

theorem payScriptHash_iff : payScriptHashPattern (parseOps b) = true ↔ PayScriptHash b := by
  have := p2sh_pattern_iff (parseOps_ok hl) (by rw [parseOps_data hl]; exact hl)
  rw [this, parseOps_data hl]; rfl

theorem payPublicKey_iff : payPublicKey (parseOps b) = true ↔ PayPublicKey b := by
  constructor
  · intro h
    have hok := parseOps_ok hl
    have hd := parseOps_data hl
    generalize parseOps b = ops at *
    unfold payPublicKey at h
    split at h
    case h_2 => cases h
    rename_i x1 x2
    simp only [Bool.and_eq_true, beq_iff_eq] at h
    obtain ⟨h1, h2⟩ := h
    have c1 := OpsOK_init hok [x1] [x2] rfl (by simp) x1 (by simp)
    have c2 := hok.consistent_of_code x2 (by simp) (by rw [h2]; decide)
    have hk := (isPublicKey_iff _).1 h1
    refine ⟨x1.data, x1.toData, hk, push_to c1 (code_of_data c1 ?_), ?_⟩
    · intro e; rw [e] at hk; rcases hk with ⟨hk, -⟩ | ⟨hk, -⟩ <;> cases hk
    · rw [← hd]
      simp only [opsData_cons, opsData_nil]
      rw [plain (by decide) c2 h2]
      simp
  · rintro ⟨k, e, h1, h2, h3⟩
    obtain ⟨o, o1, o2, o3, -⟩ := push_of h2
    have : parseOps b = [o, { code := 172 }] := by
      refine parse_is hl ?_ ?_
      · intro x hx
        simp only [List.mem_cons, List.not_mem_nil, or_false] at hx
        rcases hx with rfl | rfl
        · exact o1
        · exact plain_consistent _ (by decide)
      · simp only [opsData_cons, opsData_nil, o2, h3, plain' 172 (by decide)]
        simp
    rw [this]
    simp [payPublicKey, o3, (isPublicKey_iff _).2 h1]

/-- The shortest push of at most 80 bytes. -/
def minimalPush (d : Bytes) : Op := { code := if d.length ≤ 75 then UInt8.ofNat d.length else 76, data := d }
omit hl in
theorem minimalPush_ok {d : Bytes} (h : d.length ≤ 80) : (minimalPush d).Consistent ∧
    (minimalPush d).toData = (if d.length ≤ 75 then [UInt8.ofNat d.length] else [0x4c, UInt8.ofNat d.length]) ++ d ∧
    opcodeFromSize d.length = (minimalPush d).code := by
  unfold minimalPush
  by_cases h75 : d.length ≤ 75
  · simp only [if_pos h75]
    have c := direct_consistent d h75
    refine ⟨c, ?_, opcodeFromSize_small h75⟩
    have := (consistent_small c (by rw [UInt8.le_iff_toNat_le]; simp; show _ ≤ 75; omega)).2
    simpa using this
  · simp only [if_neg h75]
    refine ⟨⟨rfl, by simp [SizeFits]; omega, by show d.length ≤ 4000000; omega⟩, by simp [Op.toData], ?_⟩
    unfold opcodeFromSize
    rw [if_neg h75, if_pos (by omega)]

omit hl in
theorem ofSize_big {n : Nat} (h : 75 < n) : 76 ≤ opcodeFromSize n ∧ opcodeFromSize n ≤ 78 := by
  unfold opcodeFromSize
  rw [if_neg (by omega)]
  split
  · decide
  · split <;> decide

theorem payNullData_iff : payNullData (parseOps b) = true ↔ PayNullData b := by
  constructor
  · intro h
    have hok := parseOps_ok hl
    have hd := parseOps_data hl
    generalize parseOps b = ops at *
    unfold payNullData at h
    split at h
    case h_2 => cases h
    rename_i x1 x2
    simp only [Bool.and_eq_true, beq_iff_eq, decide_eq_true_eq, Op.isMinimalPush] at h
    obtain ⟨⟨h1, h2⟩, h3⟩ := h
    have c1 := OpsOK_init hok [x1] [x2] rfl (by simp) x1 (by simp)
    have c2 : x2.Consistent := by
      refine hok.consistent_of_code x2 (by simp) ?_
      rw [h2]
      intro e
      unfold minimalOpcode at e
      split at e
      · rename_i v _
        have : ∀ v : UInt8, (if v = 129 then (79 : UInt8) else if v = 0 then 0 else if 1 ≤ v ∧ v ≤ 16 then v + 80 else opcodeFromSize 1) ≠ 101 :=
          Der.byte_forall (by decide +kernel)
        exact this v e
      · by_cases h75 : x2.data.length ≤ 75
        · rw [opcodeFromSize_small h75] at e
          have := congrArg UInt8.toNat e
          simp at this
          omega
        · have := (ofSize_big (show 75 < x2.data.length by omega)).2
          rw [e] at this; revert this; decide
    have hm : minimalOpcode x2.data = opcodeFromSize x2.data.length ∧ ∀ v, x2.data = [v] → v ≠ 0x81 ∧ 16 < v := by
      by_cases h1' : x2.data.length = 1
      · obtain ⟨v, hv⟩ := List.length_eq_one_iff.1 h1'
        have hne : x2.data ≠ [] := by rw [hv]; simp
        have hc := code_of_data c2 hne
        have hsz := c2.fits
        rw [h2, hv] at hsz hc
        have key : ∀ v : UInt8, (if v = 129 then (79 : UInt8) else if v = 0 then 0 else if 1 ≤ v ∧ v ≤ 16 then v + 80 else opcodeFromSize 1) ≤ 78 →
            (if v = 129 then (79 : UInt8) else if v = 0 then 0 else if 1 ≤ v ∧ v ≤ 16 then v + 80 else opcodeFromSize 1) ≠ 0 →
            v ≠ 129 ∧ 16 < v := Der.byte_forall (by decide +kernel)
        have hz : minimalOpcode [v] ≠ 0 := by
          intro e; rw [e] at hsz; simp [SizeFits] at hsz
        have hk := key v hc hz
        refine ⟨?_, fun w hw => ?_⟩
        · rw [hv]
          show (if v = 129 then (79 : UInt8) else if v = 0 then 0 else if 1 ≤ v ∧ v ≤ 16 then v + 80 else opcodeFromSize 1) = _
          have k2 : ∀ v : UInt8, v ≠ 129 ∧ 16 < v → (if v = 129 then (79 : UInt8) else if v = 0 then 0 else if 1 ≤ v ∧ v ≤ 16 then v + 80 else opcodeFromSize 1) = opcodeFromSize 1 :=
            Der.byte_forall (by decide +kernel)
          exact k2 v hk
        · rw [hv] at hw; injection hw with hw _; subst hw; exact hk
      · refine ⟨minimalOpcode_of h1', fun v hv => ?_⟩
        rw [hv] at h1'; exact absurd rfl h1'
    refine ⟨x2.data, h3, hm.2, ?_⟩
    obtain ⟨m1, m2, m3⟩ := minimalPush_ok h3
    have : x2 = minimalPush x2.data := op_ext (by rw [h2, hm.1, m3]) rfl (by rw [c2.notUnder]; rfl)
    rw [← hd]
    simp only [opsData_cons, opsData_nil]
    rw [plain (by decide) c1 h1, ← m2, ← this]
    simp
  · rintro ⟨d, h1, h2, h3⟩
    obtain ⟨m1, m2, m3⟩ := minimalPush_ok h1
    have : parseOps b = [{ code := 106 }, minimalPush d] := by
      refine parse_is hl ?_ ?_
      · intro x hx
        simp only [List.mem_cons, List.not_mem_nil, or_false] at hx
        rcases hx with rfl | rfl
        · exact plain_consistent _ (by decide)
        · exact m1
      · simp only [opsData_cons, opsData_nil, m2, h3, plain' 106 (by decide)]
        simp
    rw [this]
    have hm : minimalOpcode d = opcodeFromSize d.length := by
      by_cases hd1 : d.length = 1
      · obtain ⟨v, hv⟩ := List.length_eq_one_iff.1 hd1
        subst hv
        have k2 : ∀ v : UInt8, v ≠ 129 ∧ 16 < v → (if v = 129 then (79 : UInt8) else if v = 0 then 0 else if 1 ≤ v ∧ v ≤ 16 then v + 80 else opcodeFromSize 1) = opcodeFromSize 1 :=
          Der.byte_forall (by decide +kernel)
        exact k2 v (h2 v rfl)
      · exact minimalOpcode_of hd1
    have hdd : (minimalPush d).data = d := rfl
    simp only [payNullData, Op.isMinimalPush, hdd, hm, m3]
    simp [h1]

/-! ### Multisig -/

omit hl in
theorem signatures_to {o : Op} (h : o.Consistent) {m : Nat} (hm : signatures o = m) (h0 : m ≠ 0) : States o.toData m := by
  unfold signatures asUnsigned32 at hm
  by_cases hn : isNonnegative o.code = true
  · rw [if_pos hn] at hm
    dsimp only at hm
    rcases (isNonnegative_iff _).1 hn with h1 | ⟨h1, h2⟩
    · rw [h1] at hm; revert hm; intro hm; exact absurd hm.symm (by simpa [opcodeToNonnegative] using h0)
    · have hne : o.code ≠ 0 := by intro e; rw [e] at h1; revert h1; decide
      have hv : opcodeToNonnegative o.code = o.code.toNat - 80 := by
        unfold opcodeToNonnegative opcodeToPositive
        rw [if_neg hne, UInt8.toNat_sub_of_le _ _ (by rw [UInt8.le_iff_toNat_le]; show 80 ≤ _; omega)]
        rfl
      rw [hv] at hm
      rw [if_neg (by omega)] at hm
      have hc : 79 ≤ o.code := by rw [UInt8.le_iff_toNat_le]; show 79 ≤ _; omega
      refine ⟨by omega, by omega, .inl ⟨by omega, ?_⟩⟩
      rw [(consistent_large h hc).2, ← hm, show 80 + (o.code.toNat - 80) = o.code.toNat by omega]
      simp
  · rw [if_neg hn] at hm
    by_cases hp : isPayload o.code = true
    · rw [hp] at hm
      simp only [Bool.not_true, Bool.false_eq_true, if_false] at hm
      rw [Num.C14_decode 4 32 (by decide)] at hm
      by_cases h4 : o.data.length ≤ 4
      · rw [if_pos h4] at hm
        dsimp only at hm
        by_cases hneg : Spec.scriptNum o.data < 0
        · rw [if_pos hneg] at hm; exact absurd hm.symm h0
        · rw [if_neg hneg] at hm
          dsimp only at hm
          by_cases hr : (Spec.scriptNum o.data).toNat < 1 ∨ 20 < (Spec.scriptNum o.data).toNat
          · rw [if_pos hr] at hm; exact absurd hm.symm h0
          · rw [if_neg hr] at hm
            refine ⟨by omega, by omega, .inr ⟨o.data, push_to h ?_, h4, by omega⟩⟩
            unfold isPayload at hp
            simp at hp
            exact hp.2
      · rw [if_neg h4] at hm; exact absurd hm.symm h0
    · have : isPayload o.code = false := by simpa using hp
      rw [this] at hm
      exact absurd hm.symm h0

omit hl in
theorem signatures_of {e : Bytes} {m : Nat} (h : States e m) : ∃ o : Op, o.Consistent ∧ o.toData = e ∧ signatures o = m := by
  obtain ⟨h1, h2, ⟨h3, rfl⟩ | ⟨d, hp, h4, h5⟩⟩ := h
  · have hc : (79 : UInt8) ≤ UInt8.ofNat (80 + m) := by
      rw [UInt8.le_iff_toNat_le]; simp; show 79 ≤ _; omega
    refine ⟨{ code := UInt8.ofNat (80 + m) }, plain_consistent _ hc, plain' _ hc, ?_⟩
    have key : ∀ k < 17, 1 ≤ k → signatures { code := UInt8.ofNat (80 + k) } = k := by decide +kernel
    exact key m (by omega) h1
  · obtain ⟨o, o1, o2, o3, o4⟩ := push_of hp
    refine ⟨o, o1, o2, ?_⟩
    have hd : d ≠ [] := by
      rintro rfl
      simp [Spec.scriptNum] at h5; omega
    have hc : isNonnegative o.code = false ∧ isPayload o.code = true := by
      have h0 : o.code ≠ 0 := by
        intro e
        have := (consistent_small o1 (by rw [e]; decide)).1
        rw [e, o3] at this
        exact hd (List.eq_nil_of_length_eq_zero this)
      have : ∀ c : UInt8, c ≠ 0 → c ≤ 78 → isNonnegative c = false ∧ isPayload c = true := Der.byte_forall (by decide +kernel)
      exact this _ h0 o4
    unfold signatures asUnsigned32
    rw [hc.1, hc.2]
    simp only [Bool.not_true, Bool.false_eq_true, if_false]
    rw [Num.C14_decode 4 32 (by decide), o3, if_pos h4]
    dsimp only
    rw [if_neg (by omega)]
    dsimp only
    rw [if_neg (by omega)]
    omega

omit hl in
theorem ends_split {ops : List Op} (h : 3 ≤ ops.length) : ∃ f mid s l, ops = f :: (mid ++ [s, l]) := by
  cases ops with
  | nil => simp at h
  | cons f r =>
    have hr : r = r.take (r.length - 2) ++ r.drop (r.length - 2) := (List.take_append_drop _ _).symm
    have hd : (r.drop (r.length - 2)).length = 2 := by simp at h ⊢; omega
    match hx : r.drop (r.length - 2), hd with
    | [s, l], _ => exact ⟨f, _, s, l, by rw [← hx, ← hr]⟩

omit hl in
theorem ends_get (f s l : Op) (mid : List Op) : (f :: (mid ++ [s, l])).head? = some f ∧
    (f :: (mid ++ [s, l]))[(f :: (mid ++ [s, l])).length - 2]? = some s ∧ (f :: (mid ++ [s, l])).getLast? = some l ∧
    (f :: (mid ++ [s, l])).length = mid.length + 3 := by
  refine ⟨rfl, ?_, ?_, by simp⟩
  · have : (f :: (mid ++ [s, l])).length - 2 = mid.length + 1 := by simp
    rw [this]
    simp
  · rw [show f :: (mid ++ [s, l]) = (f :: (mid ++ [s])) ++ [l] by simp]
    exact List.getLast?_concat ..

omit hl in
/-- The multisig pattern of a list of operations. -/
theorem payMultisig_shape (ops : List Op) : payMultisig ops = true ↔ ∃ f mid s l, ops = f :: (mid ++ [s, l]) ∧ l.code = 174 ∧
    1 ≤ signatures f ∧ signatures f ≤ signatures s ∧ signatures s = mid.length := by
  constructor
  · intro h
    by_cases h3 : 3 ≤ ops.length
    · obtain ⟨f, mid, s, l, rfl⟩ := ends_split h3
      obtain ⟨e1, e2, e3, e4⟩ := ends_get f s l mid
      unfold payMultisig at h
      rw [e1, e2, e3, e4] at h
      dsimp only at h
      split at h
      · cases h
      · rename_i hn
        simp only [Bool.and_eq_true, bne_iff_ne, ne_eq, Bool.not_eq_true', decide_eq_false_iff_not, beq_iff_eq] at h
        refine ⟨f, mid, s, l, rfl, ?_, ?_, ?_, ?_⟩
        · exact Classical.not_not.1 (fun e => hn (.inr e))
        · omega
        · omega
        · omega
    · unfold payMultisig at h
      split at h
      · rw [if_pos (.inl (by omega))] at h; cases h
      · cases h
  · rintro ⟨f, mid, s, l, rfl, h1, h2, h3, h4⟩
    obtain ⟨e1, e2, e3, e4⟩ := ends_get f s l mid
    unfold payMultisig
    rw [e1, e2, e3, e4]
    dsimp only
    rw [if_neg (by rw [h1]; simp; omega)]
    simp only [Bool.and_eq_true, bne_iff_ne, ne_eq, Bool.not_eq_true', decide_eq_false_iff_not, beq_iff_eq]
    omega

omit hl in
theorem wholes_of : ∀ (l : List Bytes), (∀ e ∈ l, Whole e) → ∃ ops : List Op, ops.length = l.length ∧ (∀ o ∈ ops, o.Consistent) ∧
    opsData ops = l.flatten
  | [], _ => ⟨[], rfl, by simp, rfl⟩
  | e :: l, h => by
    obtain ⟨o, h1, h2⟩ := whole_of (h e (by simp))
    obtain ⟨ops, h3, h4, h5⟩ := wholes_of l (fun x hx => h x (by simp [hx]))
    refine ⟨o :: ops, by simp [h3], ?_, by rw [opsData_cons, h2, h5]; rfl⟩
    intro x hx
    rcases List.mem_cons.1 hx with rfl | hx
    · exact h1
    · exact h4 x hx

theorem payMultisig_iff : payMultisig (parseOps b) = true ↔ PayMultisig b := by
  rw [payMultisig_shape]
  constructor
  · rintro ⟨f, mid, s, l, hops, h1, h2, h3, h4⟩
    have hok := parseOps_ok hl
    have hd := parseOps_data hl
    rw [hops] at hok hd
    have hi := OpsOK_init hok (f :: (mid ++ [s])) [l] (by simp) (by simp)
    have cl := hok.consistent_of_code l (by simp) (by rw [h1]; decide)
    refine ⟨signatures f, signatures s, f.toData, s.toData, mid.map Op.toData, signatures_to (hi f (by simp)) rfl (by omega),
      signatures_to (hi s (by simp)) rfl (by omega), h3, by simp [h4], ?_, ?_⟩
    · intro e he
      obtain ⟨o, ho, rfl⟩ := List.mem_map.1 he
      exact whole_to (hi o (by simp [ho]))
    · rw [← hd, opsData_cons, opsData_append, opsData_two, plain (by decide) cl h1]
      simp [opsData, List.flatMap_def]
  · rintro ⟨m, n, em, en, mid, h1, h2, h3, h4, h5, h6⟩
    obtain ⟨f, f1, f2, f3⟩ := signatures_of h1
    obtain ⟨s, s1, s2, s3⟩ := signatures_of h2
    obtain ⟨ops, o1, o2, o3⟩ := wholes_of mid h5
    refine ⟨f, ops, s, { code := 174 }, ?_, rfl, ?_, ?_, ?_⟩
    · refine parse_is hl ?_ ?_
      · intro x hx
        simp only [List.mem_cons, List.mem_append, List.not_mem_nil, or_false] at hx
        rcases hx with rfl | hx | rfl | rfl
        · exact f1
        · exact o2 x hx
        · exact s1
        · exact plain_consistent _ (by decide)
      · rw [h6, opsData_cons, opsData_append, opsData_two, plain' 174 (by decide), o3, f2, s2]
        simp
    · rw [f3]; exact h1.1
    · omega
    · omega

/-! ### Witness programs -/

theorem witness_iff (v n : UInt8) (hn : n ≤ 75) (hv : v = 0 ∨ 79 ≤ v) (h101 : v ≠ 101) :
    (∃ x y, parseOps b = [x, y] ∧ x.code = v ∧ y.code = n) ↔ ∃ h : Bytes, h.length = n.toNat ∧ b = [v, n] ++ h := by
  constructor
  · rintro ⟨x, y, hops, h1, h2⟩
    have hok := parseOps_ok hl
    have hd := parseOps_data hl
    rw [hops] at hok hd
    have hn101 : n ≠ 101 := by rintro rfl; revert hn; decide
    have c1 := hok.consistent_of_code x (by simp) (by rw [h1]; exact h101)
    have c2 := hok.consistent_of_code y (by simp) (by rw [h2]; exact hn101)
    obtain ⟨e1, e2⟩ := consistent_small c2 (by rw [h2]; exact hn)
    refine ⟨y.data, by rw [e1, h2], ?_⟩
    have hx : x.toData = [v] := by
      rcases hv with rfl | hv
      · obtain ⟨g1, g2⟩ := consistent_small c1 (by rw [h1]; decide)
        rw [h1] at g1
        rw [g2, h1, List.eq_nil_of_length_eq_zero g1]
      · exact plain hv c1 h1
    rw [← hd, opsData_two, hx, e2, h2]
    simp
  · rintro ⟨h, h1, h2⟩
    have hh : h.length ≤ 75 := by rw [h1]; exact UInt8.le_iff_toNat_le.1 hn
    have hc : ({ code := n, data := h } : Op).Consistent := by
      have := direct_consistent h hh
      rw [h1] at this
      simpa using this
    refine ⟨{ code := v }, { code := n, data := h }, ?_, rfl, rfl⟩
    refine parse_is hl ?_ ?_
    · intro x hx
      simp only [List.mem_cons, List.not_mem_nil, or_false] at hx
      rcases hx with rfl | rfl
      · rcases hv with rfl | hv
        · exact zero_consistent
        · exact plain_consistent _ hv
      · exact hc
    · rw [opsData_two, (consistent_small hc hn).2, h2]
      have hx : Op.toData { code := v } = [v] := by
        rcases hv with rfl | hv
        · rfl
        · exact plain' _ hv
      rw [hx]; simp

theorem payWitnessKeyHash_iff : payWitnessKeyHashPattern (parseOps b) = true ↔ PayWitnessKeyHash b := by
  rw [show PayWitnessKeyHash b ↔ ∃ h : Bytes, h.length = (20 : UInt8).toNat ∧ b = [0, 20] ++ h from Iff.rfl,
    ← witness_iff hl 0 20 (by decide) (.inl rfl) (by decide)]
  unfold payWitnessKeyHashPattern
  constructor
  · intro h
    split at h
    · rename_i x y hx; simp at h; exact ⟨x, y, hx, h.1, h.2⟩
    · cases h
  · rintro ⟨x, y, e, h1, h2⟩; rw [e]; simp [h1, h2]
theorem payWitnessScriptHash_iff : payWitnessScriptHashPattern (parseOps b) = true ↔ PayWitnessScriptHash b := by
  rw [show PayWitnessScriptHash b ↔ ∃ h : Bytes, h.length = (32 : UInt8).toNat ∧ b = [0, 32] ++ h from Iff.rfl,
    ← witness_iff hl 0 32 (by decide) (.inl rfl) (by decide)]
  unfold payWitnessScriptHashPattern
  constructor
  · intro h
    split at h
    · rename_i x y hx; simp at h; exact ⟨x, y, hx, h.1, h.2⟩
    · cases h
  · rintro ⟨x, y, e, h1, h2⟩; rw [e]; simp [h1, h2]
theorem payTaproot_iff : payWitnessTaprootPattern (parseOps b) = true ↔ PayTaproot b := by
  rw [show PayTaproot b ↔ ∃ h : Bytes, h.length = (32 : UInt8).toNat ∧ b = [81, 32] ++ h from Iff.rfl,
    ← witness_iff hl 81 32 (by decide) (.inr (by decide)) (by decide)]
  unfold payWitnessTaprootPattern
  constructor
  · intro h
    split at h
    · rename_i x y hx; simp at h; exact ⟨x, y, hx, h.1, h.2⟩
    · cases h
  · rintro ⟨x, y, e, h1, h2⟩; rw [e]; simp [h1, h2]

/-! ### Classification -/

omit hl in
theorem minimal_ne (d : Bytes) : minimalOpcode d ≠ 172 := by
  unfold minimalOpcode
  split
  · rename_i v
    revert v
    exact Der.byte_forall (by decide +kernel)
  · by_cases h75 : d.length ≤ 75
    · rw [opcodeFromSize_small h75]
      intro e
      have := congrArg UInt8.toNat e
      simp at this
      omega
    · intro e
      have := (ofSize_big (show 75 < d.length by omega)).2
      rw [e] at this; revert this; decide

omit hl in
theorem multisig_facts {ops : List Op} (h : payMultisig ops = true) : 4 ≤ ops.length ∧ ∀ l, ops.getLast? = some l → l.code = 174 := by
  obtain ⟨f, mid, s, l, rfl, h1, h2, h3, h4⟩ := (payMultisig_shape ops).1 h
  obtain ⟨-, -, e3, e4⟩ := ends_get f s l mid
  refine ⟨by rw [e4]; omega, fun x hx => ?_⟩
  rw [e3] at hx; injection hx with hx; rw [← hx]; exact h1

omit hl in
/-- At most one output pattern holds. -/
theorem exclusive (ops : List Op) : ([payKeyHashPattern ops, payScriptHashPattern ops, payNullData ops, payPublicKey ops, payMultisig ops,
    payWitnessKeyHashPattern ops, payWitnessScriptHashPattern ops, payWitnessTaprootPattern ops].filter id).length ≤ 1 := by
  by_cases hm : payMultisig ops = true
  · obtain ⟨f1, f2⟩ := multisig_facts hm
    rw [hm]
    match ops with
    | [] => simp at f1
    | [a] => simp at f1
    | [a, c] => simp at f1
    | [a, c, d] => simp at f1
    | [a, c, d, e] => simp [payKeyHashPattern, payScriptHashPattern, payNullData, payPublicKey, payWitnessKeyHashPattern, payWitnessScriptHashPattern, payWitnessTaprootPattern]
    | [a, c, d, e, f] =>
      have := f2 f rfl
      simp [payKeyHashPattern, payScriptHashPattern, payNullData, payPublicKey, payWitnessKeyHashPattern, payWitnessScriptHashPattern, payWitnessTaprootPattern, this]
    | a :: c :: d :: e :: f :: g :: r =>
      simp [payKeyHashPattern, payScriptHashPattern, payNullData, payPublicKey, payWitnessKeyHashPattern, payWitnessScriptHashPattern, payWitnessTaprootPattern]
  · have hm : payMultisig ops = false := by simpa using hm
    rw [hm]
    match ops with
    | [] => simp [payKeyHashPattern, payScriptHashPattern, payNullData, payPublicKey, payWitnessKeyHashPattern, payWitnessScriptHashPattern, payWitnessTaprootPattern]
    | [a] => simp [payKeyHashPattern, payScriptHashPattern, payNullData, payPublicKey, payWitnessKeyHashPattern, payWitnessScriptHashPattern, payWitnessTaprootPattern]
    | [a, c] =>
      simp only [payKeyHashPattern, payScriptHashPattern, payNullData, payPublicKey, payWitnessKeyHashPattern, payWitnessScriptHashPattern, payWitnessTaprootPattern, Op.isMinimalPush]
      have hmin := minimal_ne c.data
      generalize minimalOpcode c.data = mo at hmin
      generalize isPublicKey a.data = pk
      generalize decide (c.data.length ≤ 80) = small
      generalize a.code = x
      generalize c.code = y
      by_cases hx : x = 106
      · subst hx
        by_cases hy : y = 172
        · subst hy
          have : ((172 : UInt8) == mo) = false := by simpa using fun e => hmin e.symm
          rw [this]
          cases pk <;> cases small <;> decide
        · have : (y == 172) = false := by simpa using hy
          rw [this]
          generalize (y == mo) = z
          cases pk <;> cases small <;> cases z <;> simp
      · have e1 : (x == 106) = false := by simpa using hx
        rw [e1]
        by_cases hy : y = 172
        · subst hy; simp [List.filter]; cases pk <;> simp
        · have e2 : (y == 172) = false := by simpa using hy
          rw [e2]
          by_cases hx0 : x = 0
          · subst hx0
            by_cases hy20 : y = 20
            · subst hy20; cases pk <;> cases small <;> simp
            · have : (y == 20) = false := by simpa using hy20
              rw [this]; generalize (y == 32) = z; cases pk <;> cases small <;> cases z <;> simp
          · have : (x == 0) = false := by simpa using hx0
            rw [this]
            generalize (x == 81) = z1; generalize (y == 32) = z
            cases pk <;> cases small <;> cases z <;> cases z1 <;> simp
    | [a, c, d] =>
      simp only [payKeyHashPattern, payScriptHashPattern, payNullData, payPublicKey, payWitnessKeyHashPattern, payWitnessScriptHashPattern, payWitnessTaprootPattern]
      generalize (a.code == 169 && c.code == 20 && d.code == 135) = z
      cases z <;> decide
    | [a, c, d, e] => simp [payKeyHashPattern, payScriptHashPattern, payNullData, payPublicKey, payWitnessKeyHashPattern, payWitnessScriptHashPattern, payWitnessTaprootPattern]
    | [a, c, d, e, f] =>
      simp only [payKeyHashPattern, payScriptHashPattern, payNullData, payPublicKey, payWitnessKeyHashPattern, payWitnessScriptHashPattern, payWitnessTaprootPattern]
      generalize (a.code == 118 && c.code == 169 && d.data.length == 20 && e.code == 136 && f.code == 172) = z
      cases z <;> decide
    | a :: c :: d :: e :: f :: g :: r =>
      simp [payKeyHashPattern, payScriptHashPattern, payNullData, payPublicKey, payWitnessKeyHashPattern, payWitnessScriptHashPattern, payWitnessTaprootPattern]

omit hl in
theorem output_iff (ops : List Op) :
    (outputPattern ops = .payKeyHash ↔ payKeyHashPattern ops = true) ∧ (outputPattern ops = .payScriptHash ↔ payScriptHashPattern ops = true) ∧
    (outputPattern ops = .payNullData ↔ payNullData ops = true) ∧ (outputPattern ops = .payPublicKey ↔ payPublicKey ops = true) ∧
    (outputPattern ops = .payMultisig ↔ payMultisig ops = true) ∧
    (outputPattern ops = .payWitnessKeyHash ↔ payWitnessKeyHashPattern ops = true) ∧
    (outputPattern ops = .payWitnessScriptHash ↔ payWitnessScriptHashPattern ops = true) ∧
    (outputPattern ops = .payTaproot ↔ payWitnessTaprootPattern ops = true) := by
  have h := exclusive ops
  unfold outputPattern
  generalize payKeyHashPattern ops = a1 at *
  generalize payScriptHashPattern ops = a2 at *
  generalize payNullData ops = a3 at *
  generalize payPublicKey ops = a4 at *
  generalize payMultisig ops = a5 at *
  generalize payWitnessKeyHashPattern ops = a6 at *
  generalize payWitnessScriptHashPattern ops = a7 at *
  generalize payWitnessTaprootPattern ops = a8 at *
  revert a1 a2 a3 a4 a5 a6 a7 a8
  decide

/-- **C64** The pattern of an output script is the standard form its bytes have; at most one form fits, so the order of the tests does not
matter, and it is non standard exactly if none fits. -/
theorem C64_output : (outputPattern (parseOps b) = .payKeyHash ↔ PayKeyHash b) ∧ (outputPattern (parseOps b) = .payScriptHash ↔ PayScriptHash b) ∧
    (outputPattern (parseOps b) = .payNullData ↔ PayNullData b) ∧ (outputPattern (parseOps b) = .payPublicKey ↔ PayPublicKey b) ∧
    (outputPattern (parseOps b) = .payMultisig ↔ PayMultisig b) ∧ (outputPattern (parseOps b) = .payWitnessKeyHash ↔ PayWitnessKeyHash b) ∧
    (outputPattern (parseOps b) = .payWitnessScriptHash ↔ PayWitnessScriptHash b) ∧ (outputPattern (parseOps b) = .payTaproot ↔ PayTaproot b) ∧
    (outputPattern (parseOps b) = .nonStandard ↔ ¬ PayKeyHash b ∧ ¬ PayScriptHash b ∧ ¬ PayNullData b ∧ ¬ PayPublicKey b ∧ ¬ PayMultisig b ∧
      ¬ PayWitnessKeyHash b ∧ ¬ PayWitnessScriptHash b ∧ ¬ PayTaproot b) := by
  rw [← payKeyHash_iff hl, ← payScriptHash_iff hl, ← payNullData_iff hl, ← payPublicKey_iff hl, ← payMultisig_iff hl, ← payWitnessKeyHash_iff hl,
    ← payWitnessScriptHash_iff hl, ← payTaproot_iff hl]
  have h := output_iff (parseOps b)
  refine ⟨h.1, h.2.1, h.2.2.1, h.2.2.2.1, h.2.2.2.2.1, h.2.2.2.2.2.1, h.2.2.2.2.2.2.1, h.2.2.2.2.2.2.2, ?_⟩
  clear h
  unfold outputPattern
  generalize payKeyHashPattern _ = a1
  generalize payScriptHashPattern _ = a2
  generalize payNullData _ = a3
  generalize payPublicKey _ = a4
  generalize payMultisig _ = a5
  generalize payWitnessKeyHashPattern _ = a6
  generalize payWitnessScriptHashPattern _ = a7
  generalize payWitnessTaprootPattern _ = a8
  cases a1 <;> cases a2 <;> cases a3 <;> cases a4 <;> cases a5 <;> cases a6 <;> cases a7 <;> cases a8 <;> simp

/-! ## The inputs -/

/-- The bytes start no whole operation. -/
def Cut (d : Bytes) : Prop := ∀ e, Whole e → ¬ e <+: d

omit hl in
theorem opsOK_split {ops : List Op} (h : OpsOK ops) : (∀ o ∈ ops, o.Consistent) ∨
    ∃ p d, ops = p ++ [{ code := 101, data := d, underflow := true }] ∧ (∀ o ∈ p, o.Consistent) ∧ d ≠ [] ∧ Cut d := by
  induction h with
  | nil => exact .inl (by simp)
  | under d hne h =>
    refine .inr ⟨[], d, rfl, by simp, hne, fun e he hp => ?_⟩
    obtain ⟨o, o1, o2⟩ := whole_of he
    exact h o o1 (by rw [o2]; exact hp)
  | cons o os h t ih =>
    rcases ih with ih | ⟨p, d, rfl, h1, h2, h3⟩
    · exact .inl (by intro x hx; rcases List.mem_cons.1 hx with rfl | hx; exacts [h, ih x hx])
    · exact .inr ⟨o :: p, d, rfl, (by intro x hx; rcases List.mem_cons.1 hx with rfl | hx; exacts [h, h1 x hx]), h2, h3⟩

omit hl in
theorem opsOK_join {p : List Op} {d : Bytes} (h1 : ∀ o ∈ p, o.Consistent) (h2 : d ≠ []) (h3 : Cut d) :
    OpsOK (p ++ [{ code := 101, data := d, underflow := true }]) := by
  induction p with
  | nil => exact .under d h2 (fun o ho => h3 _ (whole_to ho))
  | cons o p ih => exact .cons _ _ (h1 o (by simp)) (ih (fun x hx => h1 x (by simp [hx])))

omit hl in
/-- Bytes that look like a public key start a whole operation. -/
theorem key_not_cut {k : Bytes} (h : PublicKey k) : ¬ Cut k := by
  intro hc
  have key : ∀ n : Nat, n ≤ 75 → k.head? = some (UInt8.ofNat n) → n < k.length → False := by
    intro n hn h1 h2
    cases k with
    | nil => cases h1
    | cons x r =>
      injection h1 with h1; subst h1
      simp at h2
      have hp : Pushes (UInt8.ofNat (r.take n).length :: r.take n) (r.take n) := .direct _ (by simp; omega)
      rw [show (r.take n).length = n by simp; omega] at hp
      refine hc _ (.inl ⟨_, hp⟩) ?_
      exact List.cons_prefix_cons.2 ⟨rfl, List.take_prefix _ _⟩
  rcases h with ⟨h1, h2 | h2⟩ | ⟨h1, h2⟩
  · exact key 2 (by decide) h2 (by omega)
  · exact key 3 (by decide) h2 (by omega)
  · exact key 4 (by decide) h2 (by omega)

omit hl in
theorem endorsement_ne {s : Bytes} (h : Endorsement s) : s ≠ [] := by
  rintro rfl; have := h.1; simp at this

omit hl in
theorem key_ne {s : Bytes} (h : PublicKey s) : s ≠ [] := by
  rintro rfl; rcases h with ⟨h, -⟩ | ⟨h, -⟩ <;> cases h

theorem signKeyHash_iff : signKeyHash (parseOps b) = true ↔ SignKeyHash b := by
  constructor
  · intro h
    have hok := parseOps_ok hl
    have hd := parseOps_data hl
    generalize parseOps b = ops at *
    unfold signKeyHash at h
    split at h
    case h_2 => cases h
    rename_i x y
    simp only [Bool.and_eq_true, isEndorsement_iff, isPublicKey_iff] at h
    obtain ⟨h1, h2⟩ := h
    have c : ∀ o ∈ [x, y], o.Consistent := by
      rcases opsOK_split hok with h | ⟨p, d, e, p1, p2, p3⟩
      · exact h
      · have : y.data = d := by
          have := congrArg List.getLast? e
          rw [List.getLast?_concat] at this
          simp at this
          rw [this]
        rw [this] at h2
        exact absurd p3 (key_not_cut h2)
    refine ⟨x.data, y.data, x.toData, y.toData, h1, h2, push_to (c x (by simp)) (code_of_data (c x (by simp)) (endorsement_ne h1)),
      push_to (c y (by simp)) (code_of_data (c y (by simp)) (key_ne h2)), ?_⟩
    rw [← hd, opsData_two]
  · rintro ⟨s, k, e, f, h1, h2, h3, h4, h5⟩
    obtain ⟨x, x1, x2, x3, -⟩ := push_of h3
    obtain ⟨y, y1, y2, y3, -⟩ := push_of h4
    have : parseOps b = [x, y] := by
      refine parse_is hl ?_ (by rw [opsData_two, x2, y2, h5])
      intro o ho
      simp only [List.mem_cons, List.not_mem_nil, or_false] at ho
      rcases ho with rfl | rfl <;> assumption
    rw [this]
    simp only [signKeyHash, x3, y3, Bool.and_eq_true, isEndorsement_iff, isPublicKey_iff]
    exact ⟨h1, h2⟩

omit hl in
theorem pushOnly_consistent {ops : List Op} (h : OpsOK ops) (hp : pushOnly ops = true) : ∀ o ∈ ops, o.Consistent := by
  refine h.allConsistent fun o ho e => ?_
  unfold pushOnly at hp
  have := List.all_eq_true.1 hp o ho
  rw [e] at this
  revert this; decide

omit hl in
theorem isPush_iff (c : UInt8) : isPush c = true ↔ c ≤ 78 ∨ c = 79 ∨ (81 ≤ c ∧ c ≤ 96) := by
  revert c
  exact Der.byte_forall (by decide +kernel)

omit hl in
theorem pushes_of : ∀ (l : List Bytes), (∀ x ∈ l, (∃ y, Pushes x y) ∨ ∃ c : UInt8, (c = 79 ∨ 81 ≤ c ∧ c ≤ 96) ∧ x = [c]) →
    ∃ ops : List Op, (∀ o ∈ ops, o.Consistent ∧ isPush o.code = true) ∧ opsData ops = l.flatten
  | [], _ => ⟨[], by simp, rfl⟩
  | e :: l, h => by
    obtain ⟨ops, h1, h2⟩ := pushes_of l (fun x hx => h x (by simp [hx]))
    rcases h e (by simp) with ⟨y, hy⟩ | ⟨c, hc, rfl⟩
    · obtain ⟨o, o1, o2, o3, o4⟩ := push_of hy
      refine ⟨o :: ops, ?_, by rw [opsData_cons, o2, h2]; rfl⟩
      intro x hx
      rcases List.mem_cons.1 hx with rfl | hx
      · exact ⟨o1, (isPush_iff _).2 (.inl o4)⟩
      · exact h1 x hx
    · have h79 : 79 ≤ c := by
        have : ∀ c : UInt8, (c = 79 ∨ 81 ≤ c ∧ c ≤ 96) → 79 ≤ c := Der.byte_forall (by decide +kernel)
        exact this c hc
      refine ⟨{ code := c } :: ops, ?_, by rw [opsData_cons, plain' _ h79, h2]; rfl⟩
      intro x hx
      rcases List.mem_cons.1 hx with rfl | hx
      · exact ⟨plain_consistent _ h79, (isPush_iff _).2 (.inr hc)⟩
      · exact h1 x hx

theorem signScriptHash_iff : signScriptHash (parseOps b) = true ↔ SignScriptHash b := by
  constructor
  · intro h
    have hok := parseOps_ok hl
    have hd := parseOps_data hl
    generalize parseOps b = ops at *
    unfold signScriptHash at h
    split at h
    case h_2 => cases h
    rename_i last he
    simp only [Bool.and_eq_true, Bool.not_eq_true', List.isEmpty_eq_false_iff] at h
    obtain ⟨h1, h2⟩ := h
    have hc := pushOnly_consistent hok h1
    obtain ⟨p, rfl⟩ : ∃ p, ops = p ++ [last] := by
      obtain ⟨p, hp⟩ := List.getLast?_eq_some_iff.1 he
      exact ⟨p, hp⟩
    have cl := hc last (by simp)
    refine ⟨p.map Op.toData, last.toData, last.data, ?_, push_to cl (code_of_data cl h2), h2, ?_⟩
    · intro x hx
      obtain ⟨o, ho, rfl⟩ := List.mem_map.1 hx
      have co := hc o (by simp [ho])
      have po := List.all_eq_true.1 h1 o (by simp [ho])
      rcases (isPush_iff _).1 po with hp | hp
      · exact .inl ⟨_, push_to co hp⟩
      · refine .inr ⟨o.code, hp, (consistent_large co ?_).2⟩
        revert hp
        generalize o.code = c
        revert c; exact Der.byte_forall (by decide +kernel)
    · rw [← hd, opsData_append]
      simp [opsData, List.flatMap_def]
  · rintro ⟨l, e, d, h1, h2, h3, h4⟩
    obtain ⟨ops, o1, o2⟩ := pushes_of l h1
    obtain ⟨x, x1, x2, x3, x4⟩ := push_of h2
    have : parseOps b = ops ++ [x] := by
      refine parse_is hl ?_ (by rw [opsData_append, o2, h4]; simp [opsData, x2])
      intro o ho
      rcases List.mem_append.1 ho with ho | ho
      · exact (o1 o ho).1
      · rw [List.mem_singleton.1 ho]; exact x1
    rw [this]
    unfold signScriptHash
    rw [List.getLast?_concat]
    simp only [Bool.and_eq_true, Bool.not_eq_true', List.isEmpty_eq_false_iff, x3]
    refine ⟨?_, h3⟩
    unfold pushOnly
    rw [List.all_eq_true]
    intro o ho
    rcases List.mem_append.1 ho with ho | ho
    · exact (o1 o ho).2
    · rw [List.mem_singleton.1 ho]; exact (isPush_iff _).2 (.inl x4)

omit hl in
/-- A key hash input is also a script hash input, a signature input too, and a multisig input too. -/
theorem forms_pushOnly : (SignKeyHash b → SignScriptHash b) ∧ (SignPublicKey b → SignScriptHash b) ∧ (SignMultisig b → SignScriptHash b) := by
  refine ⟨?_, ?_, ?_⟩
  · rintro ⟨s, k, e, f, h1, h2, h3, h4, h5⟩
    refine ⟨[e], f, k, ?_, h4, key_ne h2, by simp [h5]⟩
    intro x hx; rw [List.mem_singleton.1 hx]; exact .inl ⟨_, h3⟩
  · rintro ⟨s, h1, h2⟩
    exact ⟨[], b, s, by simp, h2, endorsement_ne h1, by simp⟩
  · rintro ⟨l, h1, h2, h3⟩
    obtain ⟨p, x, rfl⟩ : ∃ p x, l = p ++ [x] := ⟨_, _, (List.dropLast_concat_getLast h1).symm⟩
    refine ⟨[0] :: p.map Prod.fst, x.1, x.2, ?_, (h2 x (by simp)).1, endorsement_ne (h2 x (by simp)).2, ?_⟩
    · intro y hy
      rcases List.mem_cons.1 hy with rfl | hy
      · exact .inl ⟨_, .direct [] (by decide)⟩
      · obtain ⟨z, hz, rfl⟩ := List.mem_map.1 hy
        exact .inl ⟨_, (h2 z (by simp [hz])).1⟩
    · rw [h3]; simp

/-- **C64** The pattern of an input script: key hash inputs and script hash inputs (which include the former) are recognised exactly. What
is left for the other two patterns are scripts that end in an incomplete push. -/
theorem C64_input : (inputPattern (parseOps b) = .signKeyHash ↔ SignKeyHash b) ∧
    (inputPattern (parseOps b) = .signScriptHash ↔ SignScriptHash b ∧ ¬ SignKeyHash b) ∧
    (inputPattern (parseOps b) = .signPublicKey ↔ Endorsement b ∧ Cut b) ∧
    (inputPattern (parseOps b) = .signMultisig ↔ ∃ (l : List (Bytes × Bytes)) (t : Bytes), (∀ x ∈ l, Pushes x.1 x.2 ∧ Endorsement x.2) ∧
      Endorsement t ∧ Cut t ∧ b = 0 :: ((l.map Prod.fst).flatten ++ t)) := by
  have k1 := signKeyHash_iff hl
  have k2 := signScriptHash_iff hl
  have hok := parseOps_ok hl
  have hd := parseOps_data hl
  have hlen : (opsData (parseOps b)).length < 2 ^ 63 := by rw [hd]; exact hl
  have under : ∀ {p : List Op} {d : Bytes}, (∀ o ∈ p, o.Consistent) → d ≠ [] → Cut d → b = opsData p ++ d →
      parseOps b = p ++ [{ code := 101, data := d, underflow := true }] := by
    intro p d h1 h2 h3 h4
    refine opsOK_injective hok (opsOK_join h1 h2 h3) hlen ?_
    rw [hd, h4, opsData_append]
    simp [opsData, Op.toData]
  refine ⟨?_, ?_, ?_, ?_⟩
  · rw [← k1]; unfold inputPattern
    constructor
    · intro h; by_cases h1 : signKeyHash (parseOps b) = true
      · exact h1
      · rw [if_neg h1] at h; revert h; split
        · simp
        · split
          · simp
          · split <;> simp
    · intro h; rw [if_pos h]
  · rw [← k1, ← k2]; unfold inputPattern
    by_cases h1 : signKeyHash (parseOps b) = true
    · simp [h1]
    · rw [if_neg h1]
      by_cases h2 : signScriptHash (parseOps b) = true
      · simp [h1, h2]
      · rw [if_neg h2]; simp only [h2]
        split
        · simp
        · split <;> simp
  · constructor
    · intro h
      unfold inputPattern at h
      have h1 : ¬ signKeyHash (parseOps b) = true := by intro e; rw [if_pos e] at h; cases h
      rw [if_neg h1] at h
      have h2 : ¬ signScriptHash (parseOps b) = true := by intro e; rw [if_pos e] at h; cases h
      rw [if_neg h2] at h
      have h3 : signPublicKey (parseOps b) = true := by
        refine Classical.byContradiction fun e => ?_
        rw [if_neg e] at h
        revert h; split <;> simp
      clear h
      rcases opsOK_split hok with hc | ⟨p, d, e, p1, p2, p3⟩
      · exfalso
        unfold signPublicKey at h3
        split at h3
        · rename_i x hx
          rw [hx] at hc h2
          have hs := (isEndorsement_iff _).1 h3
          refine h2 ?_
          simp only [signScriptHash, List.getLast?_singleton, pushOnly, List.all_cons, List.all_nil, Bool.and_true, Bool.and_eq_true,
            Bool.not_eq_true', List.isEmpty_eq_false_iff]
          exact ⟨(isPush_iff _).2 (.inl (code_of_data (hc x (by simp)) (endorsement_ne hs))), endorsement_ne hs⟩
        · cases h3
      · rw [e] at h3
        cases p with
        | nil =>
          have hs := (isEndorsement_iff _).1 h3
          rw [e] at hd
          simp [opsData, Op.toData] at hd
          rw [← hd]; exact ⟨hs, p3⟩
        | cons o p => cases p <;> exact absurd h3 (by simp [signPublicKey])
    · rintro ⟨h1, h2⟩
      rw [under (p := []) (by simp) (endorsement_ne h1) h2 rfl]
      have := (isEndorsement_iff _).2 h1
      simp only [inputPattern, signKeyHash, signScriptHash, signPublicKey, List.nil_append, List.getLast?_singleton, pushOnly, List.all_cons, this]
      rfl
  · constructor
    · intro h
      unfold inputPattern at h
      have h1 : ¬ signKeyHash (parseOps b) = true := by intro e; rw [if_pos e] at h; cases h
      rw [if_neg h1] at h
      have h2 : ¬ signScriptHash (parseOps b) = true := by intro e; rw [if_pos e] at h; cases h
      rw [if_neg h2] at h
      have h3 : ¬ signPublicKey (parseOps b) = true := by intro e; rw [if_pos e] at h; cases h
      rw [if_neg h3] at h
      have h4 : signMultisig (parseOps b) = true := by
        refine Classical.byContradiction fun e => ?_
        rw [if_neg e] at h; cases h
      clear h h1 h3
      unfold signMultisig at h4
      split at h4
      case h_2 => cases h4
      rename_i x y r hx
      simp only [Bool.and_eq_true, beq_iff_eq, List.all_eq_true] at h4
      obtain ⟨h4, h5⟩ := h4
      have hall : ∀ o ∈ y :: r, Endorsement o.data := fun o ho => (isEndorsement_iff _).1 (h5 o ho)
      rcases opsOK_split hok with hc | ⟨p, d, e, p1, p2, p3⟩
      · exfalso
        refine h2 ?_
        rw [hx] at hc ⊢
        have hlast : (x :: y :: r).getLast? = some ((y :: r).getLast (by simp)) := by
          rw [List.getLast?_cons_cons, List.getLast?_eq_some_getLast]
        unfold signScriptHash
        rw [hlast]
        simp only [Bool.and_eq_true, Bool.not_eq_true', List.isEmpty_eq_false_iff]
        refine ⟨?_, endorsement_ne (hall _ (List.getLast_mem _))⟩
        unfold pushOnly
        rw [List.all_eq_true]
        intro o ho
        rcases List.mem_cons.1 ho with rfl | ho'
        · rw [h4]; decide
        · exact (isPush_iff _).2 (.inl (code_of_data (hc o ho) (endorsement_ne (hall o ho'))))
      · cases p with
        | nil => rw [hx] at e; simp at e
        | cons o p =>
          have e' := hx.symm.trans e
          rw [List.cons_append] at e'
          injection e' with e1 e2
          subst e1
          have hp : ∀ o ∈ p, Endorsement o.data := fun o ho => hall o (by rw [e2]; simp [ho])
          have hpd : Endorsement d := hall { code := 101, data := d, underflow := true } (by rw [e2]; simp)
          refine ⟨p.map fun o => (o.toData, o.data), d, ?_, hpd, p3, ?_⟩
          · intro z hz
            obtain ⟨o, ho, rfl⟩ := List.mem_map.1 hz
            have co := p1 o (by simp [ho])
            exact ⟨push_to co (code_of_data co (endorsement_ne (hp o ho))), hp o ho⟩
          · rw [← hd, e, opsData_append, opsData_cons]
            have cx := consistent_small (p1 x (by simp)) (by rw [h4]; decide)
            rw [h4] at cx
            rw [cx.2, List.eq_nil_of_length_eq_zero cx.1]
            have hu : opsData [{ code := 101, data := d, underflow := true }] = d := by simp [opsData, Op.toData]
            rw [hu, List.map_map]
            have : (p.map (Prod.fst ∘ fun o : Op => (o.toData, o.data))).flatten = opsData p := by
              simp [opsData, List.flatMap_def, Function.comp_def]
            rw [this]; simp
    · rintro ⟨l, t, h1, h2, h3, h4⟩
      have hops : ∀ l : List (Bytes × Bytes), (∀ x ∈ l, Pushes x.1 x.2 ∧ Endorsement x.2) → ∃ ops : List Op, (∀ o ∈ ops, o.Consistent ∧ Endorsement o.data) ∧
          opsData ops = (l.map Prod.fst).flatten := by
        intro l
        induction l with
        | nil => exact fun _ => ⟨[], by simp, rfl⟩
        | cons x l ih =>
          intro h
          obtain ⟨ops, i1, i2⟩ := ih (fun y hy => h y (by simp [hy]))
          obtain ⟨o, o1, o2, o3, o4⟩ := push_of (h x (by simp)).1
          refine ⟨o :: ops, ?_, by rw [opsData_cons, o2, i2]; rfl⟩
          intro y hy
          rcases List.mem_cons.1 hy with rfl | hy
          · exact ⟨o1, by rw [o3]; exact (h x (by simp)).2⟩
          · exact i1 y hy
      obtain ⟨ops, o1, o2⟩ := hops l h1
      have hp := under (p := { code := 0 } :: ops) (d := t) (by
        intro o ho
        rcases List.mem_cons.1 ho with rfl | ho
        · exact zero_consistent
        · exact (o1 o ho).1) (endorsement_ne h2) h3 (by rw [h4, opsData_cons, o2]; simp [Op.toData])
      rw [hp]
      have hk : signKeyHash ({ code := 0 } :: ops ++ [{ code := 101, data := t, underflow := true }]) = false := by
        cases ops with
        | nil => simp [signKeyHash, isEndorsement]
        | cons z zs => cases zs <;> simp [signKeyHash]
      have hs : signScriptHash ({ code := 0 } :: ops ++ [{ code := 101, data := t, underflow := true }]) = false := by
        unfold signScriptHash
        rw [List.getLast?_concat]
        simp [pushOnly, isPush, isRelaxedPush]
      have hq : signPublicKey ({ code := 0 } :: ops ++ [{ code := 101, data := t, underflow := true }]) = false := by
        cases ops <;> simp [signPublicKey]
      have hm : signMultisig ({ code := 0 } :: ops ++ [{ code := 101, data := t, underflow := true }]) = true := by
        have : ∀ o ∈ ops ++ [({ code := 101, data := t, underflow := true } : Op)], isEndorsement o.data = true := by
          intro o ho
          rcases List.mem_append.1 ho with ho | ho
          · exact (isEndorsement_iff _).2 (o1 o ho).2
          · rw [List.mem_singleton.1 ho]; exact (isEndorsement_iff _).2 h2
        unfold signMultisig
        cases hops : ops ++ [({ code := 101, data := t, underflow := true } : Op)] with
        | nil => simp at hops
        | cons z zs =>
          rw [hops] at this
          rw [List.cons_append, hops]
          simp only [beq_self_eq_true, Bool.true_and, List.all_eq_true]
          exact this
      unfold inputPattern
      rw [hk, hs, hq, hm]
      rfl

/-- Not what the comments say: signature and multisig inputs are never recognised as such, but reported as script hash inputs. -/
theorem C64_input_counterexample : (SignPublicKey b → inputPattern (parseOps b) = .signScriptHash) ∧
    (SignMultisig b → ¬ SignKeyHash b → inputPattern (parseOps b) = .signScriptHash) :=
  ⟨fun h => (C64_input hl).2.1.2 ⟨forms_pushOnly.2.1 h, fun hk => by
    obtain ⟨s, h1, h2⟩ := h
    obtain ⟨s', k, e, f, g1, g2, g3, g4, g5⟩ := hk
    obtain ⟨o, o1, o2, o3, -⟩ := push_of h2
    obtain ⟨x, x1, x2, x3, -⟩ := push_of g3
    obtain ⟨y, y1, y2, y3, -⟩ := push_of g4
    have e1 : parseOps b = [o] := parse_is hl (by simpa using o1) (by simp [opsData, o2])
    have e2 : parseOps b = [x, y] := parse_is hl (by simp [x1, y1]) (by rw [opsData_two, x2, y2, g5])
    rw [e1] at e2; simp at e2⟩,
   fun h hk => (C64_input hl).2.1.2 ⟨forms_pushOnly.2.2 h, hk⟩⟩

omit hl in
/-- Not what the comment "Output patterns are mutually and input unambiguous" says: a witness key hash output is also a script hash input. -/
theorem C64_unambiguous_counterexample (h : Bytes) (hh : h.length = 20) : PayWitnessKeyHash ([0x00, 0x14] ++ h) ∧ SignScriptHash ([0x00, 0x14] ++ h) := by
  refine ⟨⟨h, hh, rfl⟩, [[0]], [0x14] ++ h, h, ?_, ?_, ?_, rfl⟩
  · intro x hx
    rw [List.mem_singleton.1 hx]
    exact .inl ⟨_, .direct [] (by decide)⟩
  · have := Pushes.direct h (by omega)
    rw [hh] at this
    exact this
  · rintro rfl; cases hh

omit hl in
theorem first_data {o : Op} {x : UInt8} {e : Bytes} (ho : o.Consistent) (h : o.toData = x :: e) : o.code = x := by
  unfold Op.toData at h
  rw [ho.notUnder] at h
  injection h

/-- The other output forms are no input forms. -/
theorem C64_unambiguous (h : PayKeyHash b ∨ PayScriptHash b ∨ PayNullData b ∨ PayPublicKey b ∨ PayMultisig b) :
    ¬ SignKeyHash b ∧ ¬ SignScriptHash b ∧ ¬ SignPublicKey b ∧ ¬ SignMultisig b := by
  have key : ¬ SignScriptHash b := by
    intro hs
    have hp : pushOnly (parseOps b) = true := by
      have := (signScriptHash_iff hl).2 hs
      unfold signScriptHash at this
      split at this
      · simp at this; exact this.1
      · cases this
    have no : ∀ o ∈ parseOps b, ¬ 97 ≤ o.code := by
      intro o ho
      have := List.all_eq_true.1 hp o ho
      have k : ∀ c : UInt8, isPush c = true → ¬ 97 ≤ c := Der.byte_forall (by decide +kernel)
      exact k _ this
    rw [← payKeyHash_iff hl, ← payScriptHash_iff hl, ← payNullData_iff hl, ← payPublicKey_iff hl, ← payMultisig_iff hl] at h
    generalize parseOps b = ops at no h
    rcases h with h | h | h | h | h
    · unfold payKeyHashPattern at h
      split at h
      · rename_i a c d e f; simp at h; exact no a (by simp) (by rw [h.1.1.1.1]; decide)
      · cases h
    · unfold payScriptHashPattern at h
      split at h
      · rename_i a c d; simp at h; exact no a (by simp) (by rw [h.1.1]; decide)
      · cases h
    · unfold payNullData at h
      split at h
      · rename_i a c; simp at h; exact no a (by simp) (by rw [h.1.1]; decide)
      · cases h
    · unfold payPublicKey at h
      split at h
      · rename_i a c; simp at h; exact no c (by simp) (by rw [h.2]; decide)
      · cases h
    · obtain ⟨f, mid, s, l, rfl, h1, -⟩ := (payMultisig_shape ops).1 h
      exact no l (by simp) (by rw [h1]; decide)
  exact ⟨fun h => key (forms_pushOnly.1 h), key, fun h => key (forms_pushOnly.2.1 h), fun h => key (forms_pushOnly.2.2 h)⟩

/-! ## Builders -/

omit hl in
theorem push_data (d : Bytes) (h : d.length ≤ 75) : (push d).toData = UInt8.ofNat d.length :: d := by
  unfold push
  rw [opcodeFromSize_small h]
  exact (consistent_small (direct_consistent d h) (by rw [UInt8.le_iff_toNat_le]; simp; show _ ≤ 75; omega)).2

omit hl in
theorem standard_shape {ops : List Op} (h : payMultisigStandard ops = true) : payMultisig ops = true := by
  rw [payMultisig_shape]
  have h3 : 3 ≤ ops.length := by
    unfold payMultisigStandard at h
    split at h
    · split at h
      · cases h
      · omega
    · cases h
  obtain ⟨f, mid, s, l, rfl⟩ := ends_split h3
  obtain ⟨e1, e2, e3, e4⟩ := ends_get f s l mid
  unfold payMultisigStandard at h
  rw [e1, e2, e3, e4] at h
  dsimp only at h
  split at h
  · cases h
  rename_i hn
  split at h
  · cases h
  rename_i hp
  split at h
  · cases h
  rename_i hr
  clear h
  simp only [Bool.or_eq_true, Bool.not_eq_true', not_or, Bool.not_eq_false] at hp
  have sig : ∀ o : Op, isPositive o.code = true → signatures o = opcodeToPositive o.code := by
    intro o ho
    have k : ∀ c : UInt8, isPositive c = true → isNonnegative c = true ∧ c ≠ 0 ∧ 1 ≤ opcodeToPositive c ∧ opcodeToPositive c ≤ 16 :=
      Der.byte_forall (by decide +kernel)
    obtain ⟨k1, k2, k3, k4⟩ := k _ ho
    unfold signatures asUnsigned32 opcodeToNonnegative
    rw [if_pos k1, if_neg k2]
    dsimp only
    rw [if_neg (by omega)]
  refine ⟨f, mid, s, l, rfl, Classical.not_not.1 (fun e => hn (.inr e)), ?_, ?_, ?_⟩
  · rw [sig f hp.1]; omega
  · rw [sig f hp.1, sig s hp.2]; omega
  · rw [sig s hp.2]; omega

omit hl in
/-- **C64** The builders build the bytes of the form, and their scripts are recognised. The standard multisig pattern implies the other. -/
theorem C64_builders :
    (∀ h : Bytes, h.length = 20 → opsData (toPayScriptHash h) = [0xa9, 0x14] ++ h ++ [0x87] ∧ outputPattern (toPayScriptHash h) = .payScriptHash) ∧
    (∀ k, PublicKey k → opsData (toPayPublicKey k) = UInt8.ofNat k.length :: (k ++ [0xac]) ∧ outputPattern (toPayPublicKey k) = .payPublicKey) ∧
    (∀ d : Bytes, d.length ≤ 75 → opsData (toPayNullData d) = 0x6a :: UInt8.ofNat d.length :: d) ∧
    (∀ d : Bytes, d.length ≤ 80 → (∀ v, d = [v] → v ≠ 0x81 ∧ 16 < v) → outputPattern (toPayNullData d) = .payNullData) ∧
    (∀ d : Bytes, 2 ≤ d.length → d.length ≤ 40 → ∀ v : UInt8, v ≤ 16 → witnessProgramPattern (toPayWitness v d) = true ∧
      opsData (toPayWitness v d) = (if v = 0 then 0 else v + 80) :: UInt8.ofNat d.length :: d) ∧
    (∀ (m : UInt8) (points : List Bytes), 1 ≤ m.toNat → m.toNat ≤ points.length → points.length ≤ 16 → (∀ k ∈ points, PublicKey k) →
      payMultisigStandard (toPayMultisig m points) = true ∧ outputPattern (toPayMultisig m points) = .payMultisig ∧
      opsData (toPayMultisig m points) = [m + 80] ++ (points.flatMap fun k => UInt8.ofNat k.length :: k) ++ [UInt8.ofNat (points.length + 80), 0xae]) ∧
    (∀ ops, payMultisigStandard ops = true → payMultisig ops = true) := by
  refine ⟨?_, ?_, ?_, ?_, ?_, ?_, fun _ => standard_shape⟩
  · intro h hh
    have hp : push h = { code := 20, data := h } := by
      unfold push; rw [opcodeFromSize_small (by omega), hh]; rfl
    unfold toPayScriptHash
    rw [hp]
    exact ⟨by simp [opsData, Op.toData], rfl⟩
  · intro k hk
    have hlen : k.length ≤ 75 := by rcases hk with ⟨h, -⟩ | ⟨h, -⟩ <;> omega
    have hb := (isPublicKey_iff _).2 hk
    unfold toPayPublicKey
    rw [hb]
    simp only [Bool.not_true, Bool.false_eq_true, if_false]
    refine ⟨?_, (output_iff _).2.2.2.1.2 (by simp [payPublicKey, push, hb])⟩
    rw [opsData_two, push_data k hlen, plain' 172 (by decide)]
    simp
  · intro d hd
    unfold toPayNullData
    rw [if_neg (by omega), opsData_two, push_data d hd, plain' 106 (by decide)]
    rfl
  · intro d hd hv
    unfold toPayNullData
    rw [if_neg (by omega)]
    refine (output_iff _).2.2.1.2 ?_
    have hm : minimalOpcode d = opcodeFromSize d.length := by
      by_cases hd1 : d.length = 1
      · obtain ⟨v, rfl⟩ := List.length_eq_one_iff.1 hd1
        have k2 : ∀ v : UInt8, v ≠ 129 ∧ 16 < v → (if v = 129 then (79 : UInt8) else if v = 0 then 0 else if 1 ≤ v ∧ v ≤ 16 then v + 80 else opcodeFromSize 1) = opcodeFromSize 1 :=
          Der.byte_forall (by decide +kernel)
        exact k2 v (hv v rfl)
      · exact minimalOpcode_of hd1
    simp [payNullData, Op.isMinimalPush, push, hm, hd]
  · intro d h2 h40 v hv
    have hn : isNonnegative (opcodeFromNonnegative v) = true := by
      have k : ∀ v : UInt8, v ≤ 16 → isNonnegative (opcodeFromNonnegative v) = true := Der.byte_forall (by decide +kernel)
      exact k v hv
    refine ⟨?_, ?_⟩
    · simp [toPayWitness, witnessProgramPattern, hn, Op.isMinimalPush, push, minimalOpcode_of (show d.length ≠ 1 by omega), h2, h40]
    · unfold toPayWitness
      rw [opsData_two, push_data d (by omega)]
      have k : ∀ v : UInt8, v ≤ 16 → Op.toData { code := opcodeFromNonnegative v } = [if v = 0 then 0 else v + 80] := Der.byte_forall (by decide +kernel)
      rw [k v hv]
      rfl
  · intro m points h1 h2 h3 hk
    have hall : points.all isPublicKey = true := List.all_eq_true.2 (fun k h => (isPublicKey_iff _).2 (hk k h))
    have he : toPayMultisig m points = { code := m + 80 } :: (points.map push ++ [{ code := UInt8.ofNat (points.length + 80) }, { code := 174 }]) := by
      unfold toPayMultisig
      rw [if_neg (by omega), hall]
      simp
    have hst : payMultisigStandard (toPayMultisig m points) = true := by
      rw [he]
      obtain ⟨e1, e2, e3, e4⟩ := ends_get { code := m + 80 } { code := UInt8.ofNat (points.length + 80) } { code := 174 } (points.map push)
      unfold payMultisigStandard
      rw [e1, e2, e3, e4]
      dsimp only
      have k1 : ∀ m : UInt8, 1 ≤ m.toNat → m.toNat ≤ 16 → isPositive (m + 80) = true ∧ opcodeToPositive (m + 80) = m.toNat := Der.byte_forall (by decide +kernel)
      have k2 : ∀ n < 17, 1 ≤ n → isPositive (UInt8.ofNat (n + 80)) = true ∧ opcodeToPositive (UInt8.ofNat (n + 80)) = n := by decide +kernel
      obtain ⟨a1, a2⟩ := k1 m h1 (by omega)
      obtain ⟨b1, b2⟩ := k2 points.length (by omega) (by omega)
      rw [if_neg (by simp; omega), a1, a2, b1, b2]
      simp only [Bool.not_true, Bool.or_self, Bool.false_eq_true, if_false]
      rw [if_neg (by rw [List.length_map]; omega)]
      rw [List.all_eq_true]
      intro o ho
      have ho : o ∈ points.map push := by
        have hdrop : ((({ code := m + 80 } : Op) :: (points.map push ++ [{ code := UInt8.ofNat (points.length + 80) }, { code := 174 }])).drop 1).take
            ((points.map push).length + 3 - 3) = points.map push := by
          simp only [List.drop_succ_cons, List.drop_zero, Nat.add_sub_cancel]
          exact List.take_left
        rw [hdrop] at ho; exact ho
      obtain ⟨k, hk', rfl⟩ := List.mem_map.1 ho
      exact (isPublicKey_iff _).2 (hk k hk')
    refine ⟨hst, (output_iff _).2.2.2.2.1.2 (standard_shape hst), ?_⟩
    have k79 : ∀ m : UInt8, 1 ≤ m.toNat → m.toNat ≤ 16 → 79 ≤ m + 80 := Der.byte_forall (by decide +kernel)
    have k79' : ∀ n < 17, 1 ≤ n → 79 ≤ UInt8.ofNat (n + 80) := by decide +kernel
    rw [he, opsData_cons, opsData_append, opsData_two, plain' _ (k79 m h1 (by omega)), plain' _ (k79' _ (by omega) (by omega)), plain' 174 (by decide)]
    have hmap : opsData (points.map push) = points.flatMap fun k => UInt8.ofNat k.length :: k := by
      clear hst he hall h2 h3
      induction points with
      | nil => rfl
      | cons k ks ih =>
        have hlen : k.length ≤ 75 := by rcases hk k (by simp) with ⟨h, -⟩ | ⟨h, -⟩ <;> omega
        rw [List.map_cons, opsData_cons, push_data k hlen, ih (fun x hx => hk x (by simp [hx]))]
        simp
    rw [hmap]
    simp

omit hl in
/-- Null data built of one byte that has an opcode of its own is not recognised as null data. -/
theorem C64_null_data_counterexample : outputPattern (toPayNullData [1]) = .nonStandard := by decide

/-! ## Tapscript patterns -/

/-- A sequence of operations two by two, the first of each with 32 bytes of data, the second with the given code. -/
inductive Pairs (code : UInt8) : List Op → Prop
  | nil : Pairs code []
  | cons (a c : Op) (r : List Op) (ha : a.data.length = 32) (hc : c.code = code) (h : Pairs code r) : Pairs code (a :: c :: r)

omit hl in
theorem pairLoop_eq (code : UInt8) (tail : List Op) : ∀ (n : Nat) (body init : List Op) (f : Nat), body.length = 2 * n → n < f →
    (Pairs code body → pairLoop (init ++ body ++ tail) (init.length + body.length) code f init.length = some (.inl (init.length + body.length))) ∧
    (¬ Pairs code body → pairLoop (init ++ body ++ tail) (init.length + body.length) code f init.length = some (.inr false))
  | 0, body, init, f, hb, hf => by
    have : body = [] := List.eq_nil_of_length_eq_zero (by omega)
    subst this
    obtain ⟨f, rfl⟩ : ∃ g, f = g + 1 := ⟨f - 1, by omega⟩
    refine ⟨fun _ => ?_, fun h => absurd .nil h⟩
    simp [pairLoop]
  | n + 1, body, init, f, hb, hf => by
    obtain ⟨f, rfl⟩ : ∃ g, f = g + 1 := ⟨f - 1, by omega⟩
    match body, hb with
    | a :: c :: r, hb =>
      have hr : r.length = 2 * n := by simp at hb; omega
      have ih := pairLoop_eq code tail n r (init ++ [a, c]) f hr (by omega)
      have e1 : init ++ [a, c] ++ r ++ tail = init ++ (a :: c :: r) ++ tail := by simp
      have e2 : (init ++ [a, c]).length + r.length = init.length + (a :: c :: r).length := by simp; omega
      have e3 : (init ++ [a, c]).length = init.length + 2 := by simp
      rw [e1, e2, e3] at ih
      have g1 : at_ (init ++ (a :: c :: r) ++ tail) init.length = some a := by simp [at_]
      have g2 : at_ (init ++ (a :: c :: r) ++ tail) (init.length + 1) = some c := by simp [at_]
      have hne : init.length ≠ init.length + (a :: c :: r).length := by simp
      unfold pairLoop
      rw [if_neg hne, g1]
      dsimp only
      rw [g2]
      dsimp only
      by_cases ha : a.data.length = 32
      · rw [if_neg (by simpa using ha)]
        by_cases hc : c.code = code
        · rw [if_neg (by simpa using hc)]
          refine ⟨fun h => ih.1 ?_, fun h => ih.2 fun hp => h (.cons a c r ha hc hp)⟩
          cases h with | cons _ _ _ _ _ h => exact h
        · rw [if_pos hc]
          refine ⟨fun h => ?_, fun _ => rfl⟩
          cases h with | cons _ _ _ _ h _ => exact absurd h hc
      · rw [if_pos ha]
        refine ⟨fun h => ?_, fun _ => rfl⟩
        cases h with | cons _ _ _ h _ _ => exact absurd h ha

omit hl in
theorem split_at {ops : List Op} {i j : Nat} (h : i ≤ j) (hj : j ≤ ops.length) : ∃ a c d, ops = a ++ c ++ d ∧ a.length = i ∧ c.length = j - i := by
  refine ⟨ops.take i, (ops.drop i).take (j - i), ops.drop j, ?_, by simp; omega, by simp; omega⟩
  rw [List.append_assoc]
  have : ops.drop j = (ops.drop i).drop (j - i) := by rw [List.drop_drop]; congr 1; omega
  rw [this, List.take_append_drop, List.take_append_drop]

omit hl in
/-- **C64** The tapscript multisig walk reads no position outside the operations, and holds exactly of pairs of a 32 byte key and
CHECKSIGVERIFY ending with a key and CHECKSIG. -/
theorem C64_tapscript_multisig (ops : List Op) : ∃ r, payTapscriptMultisig ops = some r ∧
    (r = true ↔ ∃ body k c, ops = body ++ [k, c] ∧ Pairs 173 body ∧ k.data.length = 32 ∧ c.code = 172) := by
  unfold payTapscriptMultisig
  by_cases hg : ops.length < 2 ∨ ops.length % 2 ≠ 0
  · rw [if_pos hg]
    refine ⟨false, rfl, by simp, ?_⟩
    rintro ⟨body, k, c, rfl, hp, -, -⟩
    exfalso
    have : ∀ {l}, Pairs 173 l → l.length % 2 = 0 := by
      intro l h; induction h with
      | nil => rfl
      | cons a c r _ _ _ ih => simp only [List.length_cons]; omega
    have := this hp
    simp only [List.length_append, List.length_cons, List.length_nil] at hg
    omega
  · rw [if_neg hg]
    obtain ⟨a, body, d, e, ha, hb⟩ := split_at (ops := ops) (i := 0) (j := ops.length - 2) (by omega) (by omega)
    have ha : a = [] := List.eq_nil_of_length_eq_zero ha
    subst ha
    have hd : d.length = 2 := by
      have := congrArg List.length e
      simp at this; omega
    match d, hd with
    | [k, c], _ =>
      have hlen : ops.length - 2 = ([] : List Op).length + body.length := by simp; omega
      have key := pairLoop_eq 173 [k, c] (body.length / 2) body [] (ops.length + 1) (by omega) (by omega)
      rw [← e, ← hlen] at key
      by_cases hp : Pairs 173 body
      · have := key.1 hp
        simp only [List.length_nil] at this
        have g1 : at_ ops (ops.length - 2) = some k := by rw [hlen, e]; simp [at_]
        have g2 : at_ ops (ops.length - 2 + 1) = some c := by rw [hlen, e]; simp [at_]
        simp only [this, g1, g2, pure, bind, Option.bind]
        have fin : (k.data.length = 32 ∧ c.code = 172) ↔ ∃ body k c, ops = body ++ [k, c] ∧ Pairs 173 body ∧ k.data.length = 32 ∧ c.code = 172 := by
          constructor
          · rintro ⟨h1, h2⟩; exact ⟨body, k, c, by simpa using e, hp, h1, h2⟩
          · rintro ⟨b', k', c', e', -, h1, h2⟩
            rw [e] at e'
            rw [List.nil_append] at e'
            have := List.append_inj_right' e' rfl
            injection this with t1 t2; injection t2 with t2 _
            rw [t1, t2]; exact ⟨h1, h2⟩
        rw [← fin]
        by_cases hk : k.data.length = 32
        · rw [if_neg (by simpa using hk)]
          exact ⟨_, rfl, by simp [hk]⟩
        · rw [if_pos hk]
          exact ⟨false, rfl, by simp [hk]⟩
      · have := key.2 hp
        simp only [List.length_nil] at this
        simp only [this, pure, bind, Option.bind]
        refine ⟨false, rfl, by simp, ?_⟩
        rintro ⟨b', k', c', e', hp', -, -⟩
        exfalso
        rw [e] at e'
        rw [List.nil_append] at e'
        have := List.append_inj_left' e' rfl
        exact hp (this ▸ hp')

omit hl in
theorem pairs_even {code : UInt8} : ∀ {l : List Op}, Pairs code l → l.length % 2 = 0 := by
  intro l h; induction h with
  | nil => rfl
  | cons a c r _ _ _ ih => simp only [List.length_cons]; omega

/-- A number from 0 up that fits 32 bits, as the operation pushes it. -/
def Number32 (o : Op) : Prop := isNonnegative o.code = true ∨ (isPayload o.code = true ∧ o.data.length ≤ 4 ∧ 0 ≤ Spec.scriptNum o.data)

omit hl in
theorem number32_iff (o : Op) : (asUnsigned32 o).isSome = true ↔ Number32 o := by
  unfold asUnsigned32 Number32
  by_cases hn : isNonnegative o.code = true
  · simp [hn]
  · rw [if_neg hn]
    by_cases hp : isPayload o.code = true
    · rw [hp, Num.C14_decode 4 32 (by decide)]
      by_cases h4 : o.data.length ≤ 4
      · rw [if_pos h4]
        simp only [Bool.not_true, Bool.false_eq_true, if_false]
        by_cases h0 : Spec.scriptNum o.data < 0
        · rw [if_pos h0]; simp [hn]; omega
        · rw [if_neg h0]; simp [h4]; exact .inr (by omega)
      · rw [if_neg h4]; simp [hn, h4]
    · have : isPayload o.code = false := by simpa using hp
      rw [this]; simp [hn]

/-- The code is a numeric comparison other than WITHIN (156 to 162: NUMEQUAL, NUMEQUALVERIFY, NUMNOTEQUAL, the four orders). -/
def Comparison (c : UInt8) : Prop := 156 ≤ c.toNat ∧ c.toNat ≤ 162

omit hl in
/-- **C64** The tapscript threshold walk reads no position outside the operations, and holds exactly of `<key> CHECKSIG`, any number of
`<key> CHECKSIGADD`, then `<n> comparison` or `<n> <n> WITHIN`. -/
theorem C64_tapscript_threshold (ops : List Op) : ∃ r, payTapscriptThreshold ops = some r ∧
    (r = true ↔ ∃ k s body e, ops = k :: s :: (body ++ e) ∧ k.data.length = 32 ∧ s.code = 172 ∧ Pairs 186 body ∧
      ((∃ n t, e = [n, t] ∧ Number32 n ∧ Comparison t.code) ∨ ∃ n o t, e = [n, o, t] ∧ Number32 n ∧ Number32 o ∧ t.code = 165)) := by
  have thr : ∀ c : UInt8, isThreshold c = true ↔ (156 ≤ c.toNat ∧ c.toNat ≤ 162) ∨ c = 165 := Der.byte_forall (by decide +kernel)
  unfold payTapscriptThreshold
  cases hl0 : ops.getLast? with
  | none =>
    have : ops = [] := by simpa using hl0
    subst this
    exact ⟨false, rfl, by simp⟩
  | some last =>
    have hne : ops ≠ [] := by rintro rfl; cases hl0
    have hlen0 : ops.length ≠ 0 := by simpa using hne
    rw [if_neg hlen0]
    simp only [pure, bind, Option.bind]
    have lastOf : ∀ (p : List Op) (t : Op), ops = p ++ [t] → last = t := by
      rintro p t rfl
      rw [List.getLast?_concat] at hl0; injection hl0 with h; exact h.symm
    generalize hw : (last.code == 165) = w
    by_cases hg : ((decide (ops.length % 2 = 0) == w) || decide (ops.length < 4 + (if w then 1 else 0))) = true
    · rw [if_pos hg]
      refine ⟨false, rfl, by simp, ?_⟩
      rintro ⟨k, s, body, e, e0, -, -, hp, hx⟩
      exfalso
      have he := pairs_even hp
      have hlen := congrArg List.length e0
      rcases hx with ⟨n, t, rfl, -, ht⟩ | ⟨n, o, t, rfl, -, -, ht⟩
      · have := lastOf (k :: s :: (body ++ [n])) t (by simp [e0])
        subst this
        have : w = false := by
          rw [← hw]; refine Bool.eq_false_iff.2 fun hh => ?_
          have := beq_iff_eq.1 hh
          rw [this] at ht; revert ht; unfold Comparison; decide
        subst this
        simp at hg hlen
        omega
      · have := lastOf (k :: s :: (body ++ [n, o])) t (by simp [e0])
        subst this
        have : w = true := by rw [← hw, ht]; rfl
        subst this
        simp at hg hlen
        omega
    · rw [if_neg hg]
      have hsize : 4 + (if w then 1 else 0) ≤ ops.length ∧ (ops.length % 2 = 0 ↔ w = false) := by
        cases w <;> simp at hg ⊢ <;> omega
      clear hg
      obtain ⟨a, body, d, e, ha, hb⟩ := split_at (ops := ops) (i := 2) (j := ops.length - (2 + if w then 1 else 0)) (by cases w <;> simp at hsize ⊢ <;> omega) (by omega)
      match a, ha with
      | [k, s], _ =>
      have hd : d.length = 2 + if w then 1 else 0 := by
        have := congrArg List.length e
        simp at this; cases w <;> simp at hsize hb ⊢ <;> omega
      have g0 : at_ ops 0 = some k := by rw [e]; rfl
      have g1 : at_ ops 1 = some s := by rw [e]; rfl
      rw [g0, g1]
      dsimp only
      have uniq : ∀ k' s' body' e', ops = k' :: s' :: (body' ++ e') → e'.length = d.length → k' = k ∧ s' = s ∧ body' = body ∧ e' = d := by
        intro k' s' body' e' h1 h2
        rw [e] at h1
        simp only [List.cons_append, List.nil_append] at h1
        injection h1 with t1 t2; injection t2 with t2 t3
        have := List.append_inj' t3 h2.symm
        exact ⟨t1.symm, t2.symm, this.1.symm, this.2.symm⟩
      -- the size of the ending is decided by the last operation
      have size : ∀ k' s' body' e', ops = k' :: s' :: (body' ++ e') →
          ((∃ n t, e' = [n, t] ∧ Number32 n ∧ Comparison t.code) ∨ ∃ n o t, e' = [n, o, t] ∧ Number32 n ∧ Number32 o ∧ t.code = 165) → e'.length = d.length := by
        intro k' s' body' e' h1 h2
        rw [hd]
        rcases h2 with ⟨n, t, rfl, -, ht⟩ | ⟨n, o, t, rfl, -, -, ht⟩
        · have := lastOf (k' :: s' :: (body' ++ [n])) t (by simp [h1])
          subst this
          have : w = false := by
            rw [← hw]; refine Bool.eq_false_iff.2 fun hh => ?_
            have := beq_iff_eq.1 hh
            rw [this] at ht; revert ht; unfold Comparison; decide
          subst this; rfl
        · have := lastOf (k' :: s' :: (body' ++ [n, o])) t (by simp [h1])
          subst this
          have : w = true := by rw [← hw, ht]; rfl
          subst this; rfl
      have red : (∃ k s body e, ops = k :: s :: (body ++ e) ∧ k.data.length = 32 ∧ s.code = 172 ∧ Pairs 186 body ∧
          ((∃ n t, e = [n, t] ∧ Number32 n ∧ Comparison t.code) ∨ ∃ n o t, e = [n, o, t] ∧ Number32 n ∧ Number32 o ∧ t.code = 165)) ↔
          k.data.length = 32 ∧ s.code = 172 ∧ Pairs 186 body ∧
          ((∃ n t, d = [n, t] ∧ Number32 n ∧ Comparison t.code) ∨ ∃ n o t, d = [n, o, t] ∧ Number32 n ∧ Number32 o ∧ t.code = 165) := by
        constructor
        · rintro ⟨k', s', body', e', h1, h2, h3, h4, h5⟩
          obtain ⟨rfl, rfl, rfl, rfl⟩ := uniq _ _ _ _ h1 (size _ _ _ _ h1 h5)
          exact ⟨h2, h3, h4, h5⟩
        · rintro ⟨h2, h3, h4, h5⟩
          exact ⟨k, s, body, d, by simpa using e, h2, h3, h4, h5⟩
      rw [red]
      by_cases hk : k.data.length = 32
      · rw [if_neg (by simpa using hk)]
        by_cases hs : s.code = 172
        · rw [if_neg (by simpa using hs)]
          have hstop : ops.length - (2 + if w then 1 else 0) = [k, s].length + body.length := by
            have := congrArg List.length e
            simp at this ⊢; omega
          have heven : body.length % 2 = 0 := by
            have := hsize.2
            cases w <;> simp at hsize hb this <;> omega
          have key := pairLoop_eq 186 d (body.length / 2) body [k, s] (ops.length + 1) (by omega) (by
            have := congrArg List.length e
            simp at this; omega)
          rw [← e, ← hstop] at key
          have h2 : [k, s].length = 2 := rfl
          rw [h2] at key
          by_cases hp : Pairs 186 body
          · rw [key.1 hp]
            dsimp only
            have hat : ∀ i, at_ ops (ops.length - (2 + if w then 1 else 0) + i) = d[i]? := by
              intro i
              rw [hstop, e]
              unfold at_
              rw [List.getElem?_append_right (by rw [List.length_append]; omega)]
              congr 1
              rw [List.length_append]; omega
            rw [show ops.length - (2 + if w then 1 else 0) = ops.length - (2 + if w then 1 else 0) + 0 from rfl, hat 0]
            have num : ∀ n : Op, ((asUnsigned32 n).isNone = true) ↔ ¬ Number32 n := by
              intro n; rw [← number32_iff]; cases asUnsigned32 n <;> simp
            cases w with
            | false =>
              match d, hd with
              | [n, t], _ =>
                have hlast := lastOf ([k, s] ++ body ++ [n]) t (by simp [e])
                subst hlast
                have h165 : last.code ≠ 165 := by simpa using hw
                have hh1 := hat 1
                simp only [List.getElem?_cons_zero, Nat.add_zero, Bool.false_eq_true, if_false] at hh1 ⊢
                rw [hh1]
                simp only [List.getElem?_cons_succ, List.getElem?_cons_zero]
                by_cases hn : Number32 n
                · rw [if_neg (by rw [num]; simpa using hn)]
                  refine ⟨_, rfl, ?_⟩
                  rw [thr]
                  constructor
                  · rintro (h | h)
                    · exact ⟨hk, hs, hp, .inl ⟨n, last, rfl, hn, h⟩⟩
                    · exact absurd h h165
                  · rintro ⟨-, -, -, ⟨n', t', h1, h2, h3⟩ | ⟨n', o', t', h1, -⟩⟩
                    · injection h1 with h1 h1'; injection h1' with h1' _; subst h1'; exact .inl h3
                    · simp at h1
                · rw [if_pos (by rw [num]; exact hn)]
                  refine ⟨false, rfl, by simp, ?_⟩
                  rintro ⟨-, -, -, ⟨n', t', h1, h2, h3⟩ | ⟨n', o', t', h1, -⟩⟩
                  · injection h1 with h1 h1'; subst h1; exact absurd h2 hn
                  · simp at h1
            | true =>
              match d, hd with
              | [n, o, t], _ =>
                have hlast := lastOf ([k, s] ++ body ++ [n, o]) t (by simp [e])
                subst hlast
                have h165 : last.code = 165 := by simpa using hw
                have hh1 := hat 1
                have hh2 := hat 2
                simp only [List.getElem?_cons_zero, Nat.add_zero, if_true] at hh1 hh2 ⊢
                rw [hh1, hh2]
                simp only [List.getElem?_cons_succ, List.getElem?_cons_zero]
                by_cases hn : Number32 n
                · rw [if_neg (by rw [num]; simpa using hn)]
                  by_cases ho : Number32 o
                  · rw [if_neg (by rw [num]; simpa using ho)]
                    refine ⟨_, rfl, ?_⟩
                    rw [thr]
                    exact ⟨fun _ => ⟨hk, hs, hp, .inr ⟨n, o, last, rfl, hn, ho, h165⟩⟩, fun _ => .inr h165⟩
                  · rw [if_pos (by rw [num]; exact ho)]
                    refine ⟨false, rfl, by simp, ?_⟩
                    rintro ⟨-, -, -, ⟨n', t', h1, h2, h3⟩ | ⟨n', o', t', h1, h2, h3, -⟩⟩
                    · simp at h1
                    · injection h1 with h1 h1'; injection h1' with h1' _; subst h1'; exact absurd h3 ho
                · rw [if_pos (by rw [num]; exact hn)]
                  refine ⟨false, rfl, by simp, ?_⟩
                  rintro ⟨-, -, -, ⟨n', t', h1, h2, h3⟩ | ⟨n', o', t', h1, h2, -⟩⟩
                  · simp at h1
                  · injection h1 with h1 h1'; subst h1; exact absurd h2 hn
          · rw [key.2 hp]
            exact ⟨false, rfl, by simp [hp]⟩
        · rw [if_pos hs]
          exact ⟨false, rfl, by simp [hs]⟩
      · rw [if_pos hk]
        exact ⟨false, rfl, by simp [hk]⟩

end Verif.Pattern

/-! ## Concrete cases -/
namespace Verif.Pattern
open Verif Verif.Spec.Form

example : outputPattern (parseOps ([0x76, 0xa9, 0x14] ++ List.replicate 20 7 ++ [0x88, 0xac])) = .payKeyHash := by decide +kernel
example : outputPattern (parseOps ([0x51, 0x21] ++ (2 :: List.replicate 32 9) ++ [0x51, 0xae])) = .payMultisig := by decide +kernel
example : inputPattern (parseOps (0x09 :: List.replicate 9 1)) = .signScriptHash := by decide +kernel
example : inputPattern (parseOps (0x4b :: List.replicate 9 1)) = .signPublicKey := by decide +kernel
example : payTapscriptMultisig [{ code := 32, data := List.replicate 32 1 }, { code := 173 }, { code := 32, data := List.replicate 32 2 }, { code := 172 }] =
    some true := by decide +kernel
example : payTapscriptThreshold [{ code := 32, data := List.replicate 32 1 }, { code := 172 }, { code := 32, data := List.replicate 32 2 }, { code := 186 },
    { code := 82 }, { code := 156 }] = some true := by decide +kernel

end Verif.Pattern
