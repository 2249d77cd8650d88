import Verif.Spec.Connect
import Verif.Props.Script
import Verif.Props.Machine
/-!
# Lemmas on patterns and counting
-/
namespace Verif
open Verif.Machine (opcodeFromSize) 
open Verif.Spec

theorem parseOps_ok {b : Bytes} (h : b.length < 2 ^ 63) : OpsOK (parseOps b) := C04_operations_are_complete b h
theorem parseOps_data {b : Bytes} (h : b.length < 2 ^ 63) : opsData (parseOps b) = b := by
  have := (C04_any_bytes_are_a_script b h).2.1
  simpa [Script.toData, parseOps] using this
/-- Parsing is the only reading: a parseable operation list is what its bytes parse to. -/
theorem parseOps_of {ops : List Op} (hok : OpsOK ops) (hl : (opsData ops).length < 2 ^ 63) :
    parseOps (opsData ops) = ops := by
  obtain ⟨_, h2, h3, _⟩ := Script.read_unprefixed (init_ok hl) rfl rfl
  have hv : (RS.init (opsData ops)).view = opsData ops := by
    unfold RS.view RS.rest RS.init
    simp only [List.drop_zero]
    have hmax : maxSize = 2 ^ 64 - 1 := rfl
    exact List.take_of_length_le (by omega)
  have hrep : (RS.init (opsData ops)).Rep := Nat.le_refl _
  have e1 := readOps_fwd _ hok ((opsData ops).length + 1) _ (init_ok hl) rfl hrep (by rw [hv]; omega) hv
  have e2 := readOps_fwd _ h2 ((opsData ops).length + 1) _ (init_ok hl) rfl hrep (by rw [hv]; omega)
    (by rw [hv, h3]; rfl)
  exact e2.symm.trans e1

theorem opsOK_injective {a b : List Op} (ha : OpsOK a) (hb : OpsOK b) (hl : (opsData a).length < 2 ^ 63)
    (h : opsData a = opsData b) : a = b := by
  rw [← parseOps_of ha hl, h, parseOps_of hb (h ▸ hl)]

theorem OpsOK.consistent_of_code {ops : List Op} (h : OpsOK ops) : ∀ o ∈ ops, o.code ≠ 101 → o.Consistent := by
  induction h with
  | nil => simp
  | under d hne h => intro o ho hc; simp only [List.mem_singleton] at ho; subst ho; exact absurd rfl hc
  | cons o os h t ih =>
    intro x hx hc
    rcases List.mem_cons.1 hx with rfl | hx
    · exact h
    · exact ih x hx hc

theorem OpsOK.allConsistent {ops : List Op} (h : OpsOK ops) (hc : ∀ o ∈ ops, o.code ≠ 101) : ∀ o ∈ ops, o.Consistent :=
  fun o ho => h.consistent_of_code o ho (hc o ho)

theorem opsData_two (a b : Op) : opsData [a, b] = a.toData ++ b.toData := by simp [opsData]
theorem opsData_three (a b c : Op) : opsData [a, b, c] = a.toData ++ (b.toData ++ c.toData) := by simp [opsData]

/-- Data of a complete operation with a direct push opcode. -/
theorem consistent_small {o : Op} (h : o.Consistent) (hc : o.code ≤ 75) : o.data.length = o.code.toNat ∧ o.toData = o.code :: o.data := by
  have h1 := h.fits
  have hc' : o.code.toNat ≤ 75 := UInt8.le_iff_toNat_le.1 hc
  have h76 : o.code ≠ 76 := by intro h; rw [h] at hc'; simp at hc'
  have h77 : o.code ≠ 77 := by intro h; rw [h] at hc'; simp at hc'
  have h78 : o.code ≠ 78 := by intro h; rw [h] at hc'; simp at hc'
  unfold SizeFits at h1
  rw [if_neg h76, if_neg h77, if_neg h78, if_pos hc] at h1
  refine ⟨h1, ?_⟩
  unfold Op.toData
  simp [h.notUnder, h76, h77, h78]

theorem consistent_large {o : Op} (h : o.Consistent) (hc : 79 ≤ o.code) : o.data = [] ∧ o.toData = [o.code] := by
  have h1 := h.fits
  have hc' : 79 ≤ o.code.toNat := UInt8.le_iff_toNat_le.1 hc
  have h76 : o.code ≠ 76 := by intro h; rw [h] at hc'; simp at hc'
  have h77 : o.code ≠ 77 := by intro h; rw [h] at hc'; simp at hc'
  have h78 : o.code ≠ 78 := by intro h; rw [h] at hc'; simp at hc'
  unfold SizeFits at h1
  rw [if_neg h76, if_neg h77, if_neg h78, if_neg (by rw [UInt8.le_iff_toNat_le]; show ¬ _ ≤ 75; omega)] at h1
  have h2 := List.eq_nil_of_length_eq_zero h1
  refine ⟨h2, ?_⟩
  unfold Op.toData
  simp [h.notUnder, h76, h77, h78, h2]

theorem direct_consistent (d : Bytes) (h : d.length ≤ 75) : ({ code := UInt8.ofNat d.length, data := d } : Op).Consistent where
  notUnder := rfl
  fits := by
    have e : (UInt8.ofNat d.length).toNat = d.length := by simp; omega
    unfold SizeFits
    simp only
    have h76 : (UInt8.ofNat d.length) ≠ 76 := by intro h; rw [h] at e; simp at e; omega
    have h77 : (UInt8.ofNat d.length) ≠ 77 := by intro h; rw [h] at e; simp at e; omega
    have h78 : (UInt8.ofNat d.length) ≠ 78 := by intro h; rw [h] at e; simp at e; omega
    rw [if_neg h76, if_neg h77, if_neg h78, if_pos (by rw [UInt8.le_iff_toNat_le, e]; exact h), e]
  bound := by show d.length ≤ 4000000; omega

theorem plain_consistent (c : UInt8) (h : 79 ≤ c) : ({ code := c } : Op).Consistent := Machine.opc_consistent c h
theorem zero_consistent : ({ code := 0 } : Op).Consistent := direct_consistent [] (by simp)

theorem p2sh_pattern_iff {ops : List Op} (h : OpsOK ops) (hl : (opsData ops).length < 2 ^ 63) :
    payScriptHashPattern ops = true ↔ IsP2SH (opsData ops) := by
  constructor
  · intro hp
    unfold payScriptHashPattern at hp
    split at hp
    · rename_i a b c
      simp only [Bool.and_eq_true, beq_iff_eq] at hp
      obtain ⟨⟨ha, hb⟩, hc⟩ := hp
      have hcons := h.allConsistent (by
        intro o ho
        simp only [List.mem_cons, List.not_mem_nil, or_false] at ho
        rcases ho with rfl | rfl | rfl
        · rw [ha]; decide
        · rw [hb]; decide
        · rw [hc]; decide)
      have ca := consistent_large (hcons a (by simp)) (by rw [ha]; decide)
      have cb := consistent_small (hcons b (by simp)) (by rw [hb]; decide)
      have cc := consistent_large (hcons c (by simp)) (by rw [hc]; decide)
      refine ⟨b.data, by rw [cb.1, hb]; rfl, ?_⟩
      rw [opsData_three, ca.2, cb.2, cc.2, ha, hb, hc]
      rfl
    · cases hp
  · rintro ⟨d, hd, he⟩
    have key : opsData [({ code := 169 } : Op), { code := 20, data := d }, { code := 135 }] = [0xa9, 0x14] ++ d ++ [0x87] := by
      simp [opsData, Op.toData]
    have hc : ∀ o ∈ [({ code := 169 } : Op), { code := 20, data := d }, { code := 135 }], o.Consistent := by
      intro o ho
      simp only [List.mem_cons, List.not_mem_nil, or_false] at ho
      rcases ho with rfl | rfl | rfl
      · exact plain_consistent _ (by decide)
      · have := direct_consistent d (by omega)
        rw [hd] at this; exact this
      · exact plain_consistent _ (by decide)
    have hi := opsOK_injective h (Machine.opsOK_of _ hc) hl (he.trans key.symm)
    rw [hi]; rfl

theorem op_ext {a b : Op} (h1 : a.code = b.code) (h2 : a.data = b.data) (h3 : a.underflow = b.underflow) : a = b := by
  cases a; cases b; simp_all

theorem opcodeFromSize_small {n : Nat} (h : n ≤ 75) : opcodeFromSize n = UInt8.ofNat n := by
  unfold opcodeFromSize; rw [if_pos h]

theorem minimalOpcode_of {d : Bytes} (h : d.length ≠ 1) : minimalOpcode d = opcodeFromSize d.length := by
  unfold minimalOpcode
  split
  · simp at h
  · rfl

theorem isNonnegative_iff (c : UInt8) : isNonnegative c = true ↔ c = 0 ∨ (81 ≤ c.toNat ∧ c.toNat ≤ 96) := by
  unfold isNonnegative isPositive
  simp [UInt8.le_iff_toNat_le]

/-- The witness program pattern, by bytes, with the version and program the code extracts. -/
theorem program_iff {ops : List Op} (h : OpsOK ops) (hl : (opsData ops).length < 2 ^ 63) (v : Nat) (p : Bytes) :
    (witnessProgramPattern ops = true ∧ witnessProgram ops = p ∧
      ∃ a b, ops = [a, b] ∧ (a.code = 0 ∧ v = 0 ∨ 1 ≤ v ∧ v ≤ 16 ∧ a.code.toNat = 80 + v)) ↔
    IsWitnessProgram (opsData ops) v p := by
  constructor
  · rintro ⟨hp, rfl, a, b, rfl, hv⟩
    have hp' := hp
    simp only [witnessProgramPattern, Bool.and_eq_true, decide_eq_true_eq] at hp
    obtain ⟨⟨⟨ha, hb⟩, h2⟩, h40⟩ := hp
    rw [isNonnegative_iff] at ha
    have hbc : b.code = UInt8.ofNat b.data.length := by
      simp only [Op.isMinimalPush, beq_iff_eq] at hb
      rw [hb, minimalOpcode_of (by omega), opcodeFromSize_small (by omega)]
    have hbn : b.code.toNat = b.data.length := by rw [hbc]; simp; omega
    have hcons := h.allConsistent (by
      intro o ho
      simp only [List.mem_cons, List.not_mem_nil, or_false] at ho
      rcases ho with rfl | rfl
      · intro hc; rw [hc] at ha; simp at ha
      · intro hc; rw [hc] at hbn; simp at hbn; omega)
    have cb := consistent_small (hcons b (by simp)) (by rw [UInt8.le_iff_toNat_le, hbn]; show _ ≤ 75; omega)
    have ha2 : a.toData = [a.code] := by
      rcases ha with ha | ha
      · obtain ⟨h1, h2⟩ := consistent_small (hcons a (by simp)) (by rw [ha]; decide)
        rw [ha] at h1
        rw [h2, List.eq_nil_of_length_eq_zero h1]
      · exact (consistent_large (hcons a (by simp)) (by rw [UInt8.le_iff_toNat_le]; show 79 ≤ _; omega)).2
    have hw : witnessProgram [a, b] = b.data := by unfold witnessProgram; rw [if_pos hp']
    rw [hw]
    refine ⟨h2, h40, a.code, ?_, hv⟩
    rw [opsData_two, ha2, cb.2, hbc]; rfl
  · rintro ⟨h2, h40, c, hd, hv⟩
    have hc79 : c = 0 ∨ 79 ≤ c := by
      rcases hv with ⟨h, _⟩ | ⟨_, _, h⟩
      · exact .inl h
      · right; rw [UInt8.le_iff_toNat_le]; show 79 ≤ _; omega
    have hcn : ∀ k : UInt8, 1 ≤ k.toNat → k.toNat < 79 → c ≠ k := by
      rintro k h1 h2 rfl
      rcases hc79 with h | h
      · subst h; simp at h1
      · rw [UInt8.le_iff_toNat_le] at h; have : (79 : UInt8).toNat = 79 := rfl; omega
    have hcons : ∀ o ∈ [({ code := c } : Op), { code := UInt8.ofNat p.length, data := p }], o.Consistent := by
      intro o ho
      simp only [List.mem_cons, List.not_mem_nil, or_false] at ho
      rcases ho with rfl | rfl
      · rcases hc79 with rfl | h
        · exact zero_consistent
        · exact plain_consistent _ h
      · exact direct_consistent p (by omega)
    have key : opsData [({ code := c } : Op), { code := UInt8.ofNat p.length, data := p }] = c :: UInt8.ofNat p.length :: p := by
      have h1 : ({ code := c } : Op).toData = [c] := by
        unfold Op.toData
        simp [hcn 76 (by decide) (by decide), hcn 77 (by decide) (by decide), hcn 78 (by decide) (by decide)]
      have h2 := (consistent_small (hcons _ (by simp : ({ code := UInt8.ofNat p.length, data := p } : Op) ∈ _))
        (by rw [UInt8.le_iff_toNat_le]; simp; omega)).2
      rw [opsData_two, h1, h2]; rfl
    have hi := opsOK_injective h (Machine.opsOK_of _ hcons) hl (hd.trans key.symm)
    have hpat : witnessProgramPattern ops = true := by
      rw [hi]
      simp only [witnessProgramPattern, Bool.and_eq_true, decide_eq_true_eq]
      refine ⟨⟨⟨?_, ?_⟩, h2⟩, h40⟩
      · rw [isNonnegative_iff]
        rcases hv with ⟨h, _⟩ | ⟨_, _, h⟩
        · exact .inl h
        · right; omega
      · simp only [Op.isMinimalPush, beq_iff_eq]
        rw [minimalOpcode_of (by omega), opcodeFromSize_small (by omega)]
    refine ⟨hpat, ?_, _, _, hi, hv⟩
    unfold witnessProgram
    rw [if_pos hpat, hi]

/-- Deciding the template. -/
theorem program?_iff (b : Bytes) (v : Nat) (p : Bytes) : program? b = some (v, p) ↔ IsWitnessProgram b v p := by
  unfold program? IsWitnessProgram
  constructor
  · intro h
    split at h
    · rename_i c n q
      split_ifs at h with h1 h2 h3
      · cases h
        refine ⟨h1.2.1, h1.2.2, c, ?_, .inl ⟨h2, rfl⟩⟩
        rw [← h1.1]; simp
      · cases h
        refine ⟨h1.2.1, h1.2.2, c, ?_, .inr ⟨by omega, by omega, by omega⟩⟩
        rw [← h1.1]; simp
    · cases h
  · rintro ⟨h1, h2, c, rfl, hv⟩
    simp only
    rw [if_pos ⟨by simp; omega, h1, h2⟩]
    rcases hv with ⟨rfl, rfl⟩ | ⟨h3, h4, h5⟩
    · rfl
    · rw [if_neg (by rintro rfl; simp at h5; omega), if_pos (by omega)]
      congr 2; omega

theorem program?_none (b : Bytes) : program? b = none ↔ ∀ v p, ¬ IsWitnessProgram b v p := by
  constructor
  · intro h v p hp
    rw [← program?_iff, h] at hp; cases hp
  · intro h
    cases hb : program? b with
    | none => rfl
    | some x => exact absurd ((program?_iff b x.1 x.2).1 hb) (h _ _)

theorem pattern_shape {ops : List Op} (hp : witnessProgramPattern ops = true) :
    ∃ a b v, ops = [a, b] ∧ (a.code = 0 ∧ v = 0 ∨ 1 ≤ v ∧ v ≤ 16 ∧ a.code.toNat = 80 + v) := by
  have hp' := hp
  unfold witnessProgramPattern at hp'
  split at hp'
  · rename_i a b
    simp only [Bool.and_eq_true] at hp'
    rcases (isNonnegative_iff a.code).1 hp'.1.1.1 with h | h
    · exact ⟨a, b, 0, rfl, .inl ⟨h, rfl⟩⟩
    · exact ⟨a, b, a.code.toNat - 80, rfl, .inr ⟨by omega, by omega, by omega⟩⟩
  · cases hp'

theorem witness_pattern_iff {ops : List Op} (h : OpsOK ops) (hl : (opsData ops).length < 2 ^ 63) :
    witnessProgramPattern ops = true ↔ ∃ v p, IsWitnessProgram (opsData ops) v p := by
  constructor
  · intro hp
    obtain ⟨a, b, v, h1, h2⟩ := pattern_shape hp
    exact ⟨v, _, (program_iff h hl v _).1 ⟨hp, rfl, a, b, h1, h2⟩⟩
  · rintro ⟨v, p, hp⟩
    exact ((program_iff h hl v p).2 hp).1

/-- The version the code reports, from the version number. -/
def versionOf (v : Nat) : ScriptVersion := if v = 0 then .segwit else if v = 1 then .taproot else .reserved

theorem version_of_program {ops : List Op} (h : OpsOK ops) (hl : (opsData ops).length < 2 ^ 63) {v : Nat} {p : Bytes}
    (hp : IsWitnessProgram (opsData ops) v p) : scriptVersion ops = versionOf v ∧ witnessProgram ops = p := by
  obtain ⟨h1, h2, a, b, rfl, hv⟩ := (program_iff h hl v p).2 hp
  refine ⟨?_, h2⟩
  unfold scriptVersion versionOf
  simp only [h1, Bool.not_true, Bool.false_eq_true, if_false]
  rcases hv with ⟨h3, rfl⟩ | ⟨h3, h4, h5⟩
  · rw [if_pos h3, if_pos rfl]
  · have h81 : (81 : UInt8).toNat = 81 := rfl
    have hne : a.code ≠ 0 := by intro hc; rw [hc] at h5; simp at h5; omega
    have hv0 : ¬ v = 0 := by omega
    rw [if_neg hne]
    by_cases h6 : v = 1
    · have : a.code = 81 := by rw [← UInt8.toNat_inj, h81]; omega
      simp [this, h6]
    · have : a.code ≠ 81 := by intro hc; rw [hc] at h5; omega
      simp [this, h6, hv0]

theorem version_unversioned {ops : List Op} (h : OpsOK ops) (hl : (opsData ops).length < 2 ^ 63)
    (hp : ∀ v p, ¬ IsWitnessProgram (opsData ops) v p) : scriptVersion ops = .unversioned := by
  unfold scriptVersion
  rw [if_pos]
  cases hb : witnessProgramPattern ops
  · rfl
  · obtain ⟨v, p, h1⟩ := (witness_pattern_iff h hl).1 hb
    exact absurd h1 (hp v p)

theorem isWitnessProgram_unique {b : Bytes} {v w : Nat} {p q : Bytes} (h1 : IsWitnessProgram b v p)
    (h2 : IsWitnessProgram b w q) : v = w ∧ p = q := by
  rw [← program?_iff] at h1 h2
  rw [h1] at h2; cases h2; exact ⟨rfl, rfl⟩

end Verif
