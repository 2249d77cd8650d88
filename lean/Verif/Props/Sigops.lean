import Verif.Lemmas.Connect
/-!
# C51: consensus templates by bytes; C25: signature operation counting
-/
namespace Verif
open Verif.Spec

/-! ## C51 -/

/-- The P2SH test on the parsed operations of any byte string is the BIP16 byte template. -/
theorem C51_pay_script_hash (b : Bytes) (h : b.length < 2 ^ 63) :
    payScriptHashPattern (parseOps b) = true ↔ IsP2SH b := by
  rw [p2sh_pattern_iff (parseOps_ok h) (by rw [parseOps_data h]; exact h), parseOps_data h]

/-- The witness program test is the BIP141 byte template, and the version and program reported are those of it. -/
theorem C51_witness_program (b : Bytes) (h : b.length < 2 ^ 63) :
    (witnessProgramPattern (parseOps b) = true ↔ ∃ v p, IsWitnessProgram b v p) ∧
    (∀ v p, IsWitnessProgram b v p → witnessProgram (parseOps b) = p ∧ scriptVersion (parseOps b) = versionOf v) ∧
    ((∀ v p, ¬ IsWitnessProgram b v p) → scriptVersion (parseOps b) = .unversioned) := by
  have hl : (opsData (parseOps b)).length < 2 ^ 63 := by rw [parseOps_data h]; exact h
  refine ⟨?_, ?_, ?_⟩
  · rw [witness_pattern_iff (parseOps_ok h) hl, parseOps_data h]
  · intro v p hp
    have := version_of_program (parseOps_ok h) hl (v := v) (p := p) (by rw [parseOps_data h]; exact hp)
    exact ⟨this.2, this.1⟩
  · intro hn
    exact version_unversioned (parseOps_ok h) hl (by rw [parseOps_data h]; exact hn)

/-- The three standard witness templates. -/
theorem C51_standard_witness (b : Bytes) (h : b.length < 2 ^ 63) :
    (payWitnessKeyHashPattern (parseOps b) = true ↔ ∃ p, IsWitnessProgram b 0 p ∧ p.length = 20) ∧
    (payWitnessScriptHashPattern (parseOps b) = true ↔ ∃ p, IsWitnessProgram b 0 p ∧ p.length = 32) ∧
    (payWitnessTaprootPattern (parseOps b) = true ↔ ∃ p, IsWitnessProgram b 1 p ∧ p.length = 32) := by
  have hl : (opsData (parseOps b)).length < 2 ^ 63 := by rw [parseOps_data h]; exact h
  have hok := parseOps_ok h
  have key : ∀ (c n : UInt8) (v : Nat), (c = 0 ∧ v = 0 ∨ c = 81 ∧ v = 1) → 2 ≤ n.toNat → n.toNat ≤ 40 →
      ((match parseOps b with | [x, y] => x.code == c && y.code == n | _ => false) = true ↔
        ∃ p, IsWitnessProgram b v p ∧ p.length = n.toNat) := by
    intro c n v hv h2 h40
    constructor
    · intro hm
      split at hm
      · rename_i x y heq
        simp only [Bool.and_eq_true, beq_iff_eq] at hm
        obtain ⟨hx, hy⟩ := hm
        have cy := consistent_small (hok.consistent_of_code y (by rw [heq]; simp) (by
          intro hc; rw [hc] at hy; rw [← hy] at h40; revert h40; decide))
          (by rw [hy, UInt8.le_iff_toNat_le]; show _ ≤ 75; omega)
        rw [hy] at cy
        refine ⟨y.data, ?_, cy.1⟩
        rw [← parseOps_data h]
        have hnz : (n.toNat ≠ 1) := by omega
        have hmin : y.isMinimalPush = true := by
          simp only [Op.isMinimalPush, beq_iff_eq]
          rw [minimalOpcode_of (by omega), opcodeFromSize_small (by omega), cy.1, hy]; simp
        have hpat : witnessProgramPattern (parseOps b) = true := by
          rw [heq]
          simp only [witnessProgramPattern, Bool.and_eq_true, decide_eq_true_eq]
          refine ⟨⟨⟨?_, hmin⟩, by omega⟩, by omega⟩
          rw [isNonnegative_iff, hx]
          rcases hv with ⟨rfl, _⟩ | ⟨rfl, _⟩
          · exact .inl rfl
          · exact .inr (by decide)
        refine (program_iff hok hl v _).1 ⟨hpat, ?_, x, y, heq, ?_⟩
        · unfold witnessProgram; rw [if_pos hpat, heq]
        · rw [hx]
          rcases hv with ⟨rfl, rfl⟩ | ⟨rfl, rfl⟩
          · exact .inl ⟨rfl, rfl⟩
          · exact .inr ⟨by decide, by decide, by decide⟩
      · cases hm
    · rintro ⟨p, hp, hn⟩
      rw [← parseOps_data h] at hp
      obtain ⟨h1, h3, x, y, heq, hx⟩ := (program_iff hok hl v p).2 hp
      have h1' := h1
      rw [heq] at h1
      simp only [witnessProgramPattern, Bool.and_eq_true, decide_eq_true_eq] at h1
      obtain ⟨⟨⟨_, hmin⟩, _⟩, _⟩ := h1
      have hyp : y.data = p := by rw [← h3]; unfold witnessProgram; rw [if_pos h1', heq]
      simp only [Op.isMinimalPush, beq_iff_eq] at hmin
      rw [minimalOpcode_of (by rw [hyp]; omega), opcodeFromSize_small (by rw [hyp]; omega), hyp, hn] at hmin
      rw [heq]
      simp only [Bool.and_eq_true, beq_iff_eq]
      refine ⟨?_, by rw [hmin]; simp⟩
      rcases hv with ⟨rfl, rfl⟩ | ⟨rfl, rfl⟩
      · rcases hx with h | h
        · exact h.1
        · omega
      · rcases hx with h | h
        · omega
        · rw [← UInt8.toNat_inj]; exact h.2.2
  exact ⟨key 0 20 0 (.inl ⟨rfl, rfl⟩) (by decide) (by decide), key 0 32 0 (.inl ⟨rfl, rfl⟩) (by decide) (by decide),
    key 81 32 1 (.inr ⟨rfl, rfl⟩) (by decide) (by decide)⟩

/-- Non-vacuity: a P2SH script, a version 1 program, and near misses (push through OP_PUSHDATA1; 41 bytes). -/
example : IsP2SH ([0xa9, 0x14] ++ List.replicate 20 7 ++ [0x87]) ∧
    ¬ IsP2SH ([0xa9, 0x4c, 0x14] ++ List.replicate 20 7 ++ [0x87]) ∧
    IsWitnessProgram ([0x51, 0x20] ++ List.replicate 32 7) 1 (List.replicate 32 7) ∧
    witnessProgramPattern (parseOps ([0x51, 41] ++ List.replicate 41 7)) = false := by
  refine ⟨⟨_, by simp, rfl⟩, by decide, ?_, by decide +kernel⟩
  rw [← program?_iff]; decide

/-! ## C25 -/

theorem cadd_min (a b : Nat) : cadd (min a maxSize) b = min (a + b) maxSize := by
  unfold cadd; simp only [maxSize]; omega

theorem cadd_min2 (a b : Nat) : cadd (min a maxSize) (min b maxSize) = min (a + b) maxSize := by
  unfold cadd; simp only [maxSize]; omega

theorem foldl_cadd_min {α : Type} (f g : α → Nat) (l : List α) (h : ∀ x ∈ l, f x = min (g x) maxSize) :
    l.foldl (fun t x => cadd t (f x)) 0 = min (l.map g).sum maxSize := by
  have : ∀ (l : List α), (∀ x ∈ l, f x = min (g x) maxSize) → ∀ t,
      l.foldl (fun t x => cadd t (f x)) (min t maxSize) = min (t + (l.map g).sum) maxSize := by
    intro l
    induction l with
    | nil => intro _ t; simp
    | cons x xs ih =>
      intro h t
      rw [List.foldl_cons, h x (by simp), cadd_min2, ih (fun y hy => h y (by simp [hy])), List.map_cons, List.sum_cons, Nat.add_assoc]
  simpa using this l h 0

theorem positive_iff (c : UInt8) : isPositive c = true ↔ 81 ≤ c.toNat ∧ c.toNat ≤ 96 := by
  unfold isPositive; simp [UInt8.le_iff_toNat_le]

theorem multisigSigops_eq (acc : Bool) (p : UInt8) (o : Op) (h1 : ¬ (o.code = 172 ∨ o.code = 173)) (h2 : o.code = 174 ∨ o.code = 175) :
    multisigSigops acc p = sigopWeight acc (some p) o.code := by
  unfold multisigSigops sigopWeight
  rw [if_neg h1, if_pos h2]
  simp only [Bool.and_eq_true, positive_iff]
  split_ifs with h
  · unfold opcodeToPositive
    rw [UInt8.toNat_sub_of_le _ _ (by rw [UInt8.le_iff_toNat_le]; show 80 ≤ _; omega)]; rfl
  · rfl

theorem sigopsLoop_eq (acc : Bool) : ∀ (ops : List Op) (t : Nat) (last : UInt8),
    sigopsLoop acc (min t maxSize) last ops =
      min (t + ((ops.zip (some last :: ops.map fun o => some o.code)).map fun p => sigopWeight acc p.2 p.1.code).sum) maxSize := by
  intro ops
  induction ops with
  | nil => intro t last; simp [sigopsLoop]
  | cons o os ih =>
    intro t last
    unfold sigopsLoop
    have : (if o.code = 172 ∨ o.code = 173 then cadd (min t maxSize) 1
       else if o.code = 174 ∨ o.code = 175 then cadd (min t maxSize) (multisigSigops acc last)
       else min t maxSize) = min (t + sigopWeight acc (some last) o.code) maxSize := by
      split_ifs with h1 h2
      · rw [cadd_min]; simp [sigopWeight, h1]
      · rw [cadd_min, multisigSigops_eq acc last o h1 h2]
      · simp only [sigopWeight, if_neg h1, if_neg h2, Nat.add_zero]
    rw [this, ih]
    simp only [List.map_cons, List.zip_cons_cons, List.sum_cons, Nat.add_assoc]

/-- The count of a script is the sum of the weights of its operations (saturated at the largest size_t). -/
theorem C25_script_count (acc : Bool) (ops : List Op) : scriptSigops acc ops = min (sigops acc ops) maxSize := by
  have h := sigopsLoop_eq acc ops 0 79
  simp only [Nat.zero_min, Nat.zero_add] at h
  unfold scriptSigops sigops
  rw [h]
  congr 2
  cases ops with
  | nil => rfl
  | cons o os =>
    simp only [List.zip_cons_cons, List.map_cons]
    congr 1
    unfold sigopWeight
    have : (79 : UInt8).toNat = 79 := rfl
    simp

theorem sigopWeight_le (acc : Bool) (p : Option UInt8) (c : UInt8) : sigopWeight acc p c ≤ 20 := by
  unfold sigopWeight
  split_ifs
  · omega
  · split
    · split_ifs <;> omega
    · omega
  · omega

/-- No script counts more than 20 per operation, and accurate counting never counts more than the coarse one. -/
theorem C25_bounds (acc : Bool) (ops : List Op) : sigops acc ops ≤ 20 * ops.length ∧ sigops true ops ≤ sigops false ops := by
  constructor
  · have : ∀ (l : List (Op × Option UInt8)), (l.map fun p => sigopWeight acc p.2 p.1.code).sum ≤ 20 * l.length := by
      intro l
      induction l with
      | nil => simp
      | cons x xs ih =>
        simp only [List.map_cons, List.sum_cons, List.length_cons]
        have := sigopWeight_le acc x.2 x.1.code
        omega
    refine le_trans (this _) ?_
    simp [List.length_zip]
  · have : ∀ (l : List (Op × Option UInt8)), (l.map fun p => sigopWeight true p.2 p.1.code).sum ≤ (l.map fun p => sigopWeight false p.2 p.1.code).sum := by
      intro l
      induction l with
      | nil => simp
      | cons x xs ih =>
        simp only [List.map_cons, List.sum_cons]
        have : sigopWeight true x.2 x.1.code ≤ sigopWeight false x.2 x.1.code := by
          unfold sigopWeight
          split_ifs
          · omega
          · split
            · split_ifs <;> simp_all; omega
            · omega
          · omega
        omega
    exact this _

theorem sigops_small {acc : Bool} {ops : List Op} (h : ops.length < 2 ^ 57) :
    scriptSigops acc ops = sigops acc ops ∧ sigops acc ops < 2 ^ 62 := by
  have := (C25_bounds acc ops).1
  rw [C25_script_count]
  simp only [maxSize]
  omega

theorem ops_length_le {ops : List Op} (h : OpsOK ops) : ops.length ≤ (opsData ops).length := by
  induction h with
  | nil => simp
  | under d hne h =>
    have := List.length_pos_iff.2 hne
    simp [opsData, Op.toData]; omega
  | cons o os h t ih =>
    have : 0 < o.toData.length := by unfold Op.toData; simp [h.notUnder]
    simp only [opsData, List.flatMap_cons, List.length_append, List.length_cons] at ih ⊢
    omega

theorem parsed_length {b : Bytes} (h : b.length < 2 ^ 57) : (parseOps b).length < 2 ^ 57 := by
  have h1 := ops_length_le (parseOps_ok (b := b) (by omega))
  rw [parseOps_data (by omega)] at h1
  omega

/-- Sizes that any object in memory satisfies; the operations are parsed ones. -/
structure SpendIn.OK (i : SpendIn) : Prop where
  ops : i.ops.length < 2 ^ 57
  data : ∀ o ∈ i.ops, o.data.length < 2 ^ 57
  witness : ∀ w ∈ i.witness, w.length < 2 ^ 57
  prevout : ∀ prev, i.prevout = some prev → OpsOK prev ∧ (opsData prev).length < 2 ^ 57

theorem relaxed_eq (ops : List Op) : relaxedPushPattern ops = ops.all (fun o => decide (o.code.toNat ≤ 96)) := by
  rfl

theorem extractEmbedded_eq (i : SpendIn) (prev : List Op) (h : OpsOK prev) (hl : (opsData prev).length < 2 ^ 57) :
    extractEmbedded i.ops prev = if IsP2SH (opsData prev) then (redeem i).map parseOps else none := by
  unfold extractEmbedded redeem
  have hp := p2sh_pattern_iff h (by omega)
  by_cases h1 : IsP2SH (opsData prev)
  · rw [if_pos h1, if_neg (by rw [hp.2 h1]; simp)]
    rw [relaxed_eq]
    cases hg : i.ops.getLast? with
    | none => simp
    | some o => cases i.ops.all (fun o => decide (o.code.toNat ≤ 96)) <;> simp
  · rw [if_neg h1, if_pos]
    cases hb : payScriptHashPattern prev
    · rfl
    · exact absurd (hp.1 hb) h1

theorem sigops_checksig : sigops true [{ code := 172 }] = 1 := by decide

open Classical in
theorem extractWitness_count (w : List Bytes) (hw : ∀ x ∈ w, x.length < 2 ^ 57) (ops : List Op) (h : OpsOK ops)
    (hl : (opsData ops).length < 2 ^ 57) :
    if ∃ v p, IsWitnessProgram (opsData ops) v p then
      ∃ s, extractWitness w ops = some s ∧ scriptSigops true s = programCount (opsData ops) w ∧ programCount (opsData ops) w < 2 ^ 62
    else extractWitness w ops = none ∧ programCount (opsData ops) w = 0 := by
  split_ifs with hp
  · obtain ⟨v, p, hp⟩ := hp
    obtain ⟨h1, h2⟩ := version_of_program h (by omega) hp
    unfold extractWitness programCount
    rw [h1, h2]
    have hex : ∀ n, (∃ q, IsWitnessProgram (opsData ops) 0 q ∧ q.length = n) ↔ v = 0 ∧ p.length = n := by
      intro n
      constructor
      · rintro ⟨q, hq, hn⟩
        obtain ⟨rfl, rfl⟩ := isWitnessProgram_unique hp hq
        exact ⟨rfl, hn⟩
      · rintro ⟨rfl, hn⟩; exact ⟨p, hp, hn⟩
    simp only [hex]
    unfold versionOf
    by_cases hv : v = 0
    · simp only [hv, if_true, true_and]
      split_ifs with h20 h32
      · exact ⟨_, rfl, by decide, by decide⟩
      · cases hg : w.getLast? with
        | none => exact ⟨_, rfl, by decide, by decide⟩
        | some x =>
          have := sigops_small (acc := true) (parsed_length (hw x (List.mem_of_getLast? hg)))
          exact ⟨_, rfl, this.1, this.2⟩
      · exact ⟨_, rfl, by decide, by decide⟩
    · simp only [hv, if_false, false_and]
      by_cases hv1 : v = 1
      · simp only [hv1, if_true]; exact ⟨_, rfl, by decide, by decide⟩
      · simp only [hv1, if_false]; exact ⟨_, rfl, by decide, by decide⟩
  · have h1 := version_unversioned h (by omega) (fun v p hh => hp ⟨v, p, hh⟩)
    constructor
    · unfold extractWitness; rw [h1]
    · unfold programCount
      rw [if_neg (by rintro ⟨q, hq, _⟩; exact hp ⟨_, _, hq⟩), if_neg (by rintro ⟨q, hq, _⟩; exact hp ⟨_, _, hq⟩)]

/-- What one input adds to the cost of its transaction. -/
noncomputable def inputCost (bip16 bip141 : Bool) (i : SpendIn) : Nat :=
  if bip141 then 4 * (sigops false i.ops + if bip16 then p2shCount i else 0) + witnessCount i
  else sigops false i.ops + if bip16 then p2shCount i else 0

/-- A script that is only a witness program has no counted operations. -/
theorem sigops_program {ops : List Op} (hok : OpsOK ops) (hl : (opsData ops).length < 2 ^ 63) {v : Nat} {p : Bytes}
    (h : IsWitnessProgram (opsData ops) v p) : sigops true ops = 0 := by
  obtain ⟨h1, h2, a, b, rfl, hv⟩ := (program_iff hok hl v p).2 h
  simp only [witnessProgramPattern, Bool.and_eq_true, decide_eq_true_eq] at h1
  obtain ⟨⟨⟨ha, hb⟩, h3⟩, h40⟩ := h1
  rw [isNonnegative_iff] at ha
  simp only [Op.isMinimalPush, beq_iff_eq] at hb
  rw [minimalOpcode_of (by omega), opcodeFromSize_small (by omega)] at hb
  have hb' : b.code.toNat = b.data.length := by rw [hb]; simp; omega
  have hw : ∀ (q : Option UInt8) (c : UInt8), c.toNat ≤ 96 → sigopWeight true q c = 0 := by
    intro q c hc
    unfold sigopWeight
    rw [if_neg, if_neg]
    · rintro (rfl | rfl) <;> revert hc <;> decide
    · rintro (rfl | rfl) <;> revert hc <;> decide
  have ha96 : a.code.toNat ≤ 96 := by
    rcases ha with h | h
    · rw [h]; decide
    · exact h.2
  simp [sigops, hw _ a.code ha96, hw _ b.code (by omega)]

theorem not_both {b : Bytes} {v : Nat} {p : Bytes} (h1 : IsP2SH b) (h2 : IsWitnessProgram b v p) : False := by
  obtain ⟨d, _, rfl⟩ := h1
  obtain ⟨_, _, c, hc, hv⟩ := h2
  have : c = 0xa9 := by simpa using (congrArg List.head? hc).symm
  subst this
  rcases hv with ⟨h, _⟩ | ⟨_, h3, h⟩
  · revert h; decide
  · have : (0xa9 : UInt8).toNat = 169 := rfl
    omega

theorem inputSigops_eq (bip16 bip141 : Bool) (hb : bip141 = true → bip16 = true) (i : SpendIn) (hi : i.OK) :
    inputSigops bip16 bip141 i.ops i.witness i.prevout = min (inputCost bip16 bip141 i) maxSize := by
  obtain ⟨hs1, hs2⟩ := sigops_small (acc := false) hi.ops
  unfold inputSigops inputCost
  rw [hs1]
  cases hpv : i.prevout with
  | none =>
    have h1 : p2shCount i = 0 := by unfold p2shCount; rw [hpv]
    have h2 : witnessCount i = 0 := by unfold witnessCount; rw [hpv]
    simp only [h1, h2, wmul, maxSize]
    cases bip141 <;> simp <;> omega
  | some prev =>
    obtain ⟨hpok, hpl⟩ := hi.prevout prev hpv
    have hred : ∀ r, redeem i = some r → r.length < 2 ^ 57 := by
      intro r hr
      unfold redeem at hr
      split_ifs at hr
      cases hg : i.ops.getLast? with
      | none => rw [hg] at hr; cases hr
      | some o => rw [hg] at hr; cases hr; exact hi.data o (List.mem_of_getLast? hg)
    have hemb := extractEmbedded_eq i prev hpok hpl
    cases bip141 with
    | false =>
      simp only [Bool.false_eq_true, if_false]
      cases bip16 with
      | false => simp [wmul, maxSize]; omega
      | true =>
        simp only [if_true]
        rw [hemb]
        unfold p2shCount
        rw [hpv]
        by_cases hp2 : IsP2SH (opsData prev)
        · cases hr : redeem i with
          | none => simp [wmul, maxSize, hp2]; omega
          | some r =>
            obtain ⟨e1, e2⟩ := sigops_small (acc := true) (parsed_length (hred r hr))
            simp only [hp2, if_true, Option.map_some, e1]
            rw [← cadd]
            simp only [cadd, wmul, maxSize]; omega
        · cases hr : redeem i <;> simp [wmul, maxSize, hp2] <;> omega
    | true =>
      have := hb rfl
      subst this
      simp only [if_true]
      have hx := extractWitness_count i.witness hi.witness prev hpok hpl
      by_cases hwp : ∃ v p, IsWitnessProgram (opsData prev) v p
      · rw [if_pos hwp] at hx
        obtain ⟨sc, hsc1, hsc2, hsc3⟩ := hx
        have hp2 : ¬ IsP2SH (opsData prev) := by
          obtain ⟨v, p, hwp⟩ := hwp
          exact fun h => not_both h hwp
        have h1 : p2shCount i = 0 := by
          unfold p2shCount; rw [hpv]; cases redeem i <;> simp [hp2]
        have h2 : witnessCount i = programCount (opsData prev) i.witness := by
          unfold witnessCount; rw [hpv]; simp only; rw [if_pos hwp]
        simp only [hsc1, hsc2, h1, h2]
        simp only [cadd, wmul, maxSize]; omega
      · rw [if_neg hwp] at hx
        have h2 : witnessCount i = if IsP2SH (opsData prev) then (match redeem i with | some r => programCount r i.witness | none => 0) else 0 := by
          unfold witnessCount; rw [hpv]; simp only; rw [if_neg hwp]; by_cases hq : IsP2SH (opsData prev) <;> simp only [hq, if_true, if_false] <;> cases redeem i <;> rfl
        simp only [hx.1, hemb, h2]
        by_cases hp2 : IsP2SH (opsData prev)
        · simp only [hp2, if_true]
          cases hr : redeem i with
          | none =>
            have h1 : p2shCount i = 0 := by unfold p2shCount; rw [hpv, hr]
            simp only [h1, Option.map_none, wmul, maxSize]; omega
          | some r =>
            have hrl := hred r hr
            have h1 : p2shCount i = sigops true (parseOps r) := by unfold p2shCount; rw [hpv, hr]; simp [hp2]
            obtain ⟨e1, e2⟩ := sigops_small (acc := true) (parsed_length hrl)
            have hrd : opsData (parseOps r) = r := parseOps_data (by omega)
            have hy := extractWitness_count i.witness hi.witness (parseOps r) (parseOps_ok (by omega)) (by rw [hrd]; exact hrl)
            rw [hrd] at hy
            simp only [Option.map_some, h1]
            by_cases hrp : ∃ v p, IsWitnessProgram r v p
            · rw [if_pos hrp] at hy
              obtain ⟨sc, hsc1, hsc2, hsc3⟩ := hy
              obtain ⟨v, p, hrp⟩ := hrp
              have hz := sigops_program (parseOps_ok (b := r) (by omega)) (by rw [hrd]; omega) (by rw [hrd]; exact hrp)
              simp only [hsc1, hsc2, hz, cadd, wmul, maxSize]; omega
            · rw [if_neg hrp] at hy
              simp only [hy.1, hy.2, e1, cadd, wmul, maxSize]; omega
        · have h1 : p2shCount i = 0 := by
            unfold p2shCount; rw [hpv]; cases redeem i <;> simp [hp2]
          simp only [hp2, if_false, h1, wmul, maxSize]; omega

theorem sum_map_add' {α : Type} (f g : α → Nat) (l : List α) : (l.map fun x => f x + g x).sum = (l.map f).sum + (l.map g).sum := by
  induction l with
  | nil => rfl
  | cons x xs ih => simp only [List.map_cons, List.sum_cons, ih]; omega
theorem sum_map_mul {α : Type} (k : Nat) (f : α → Nat) (l : List α) : (l.map fun x => k * f x).sum = k * (l.map f).sum := by
  induction l with
  | nil => rfl
  | cons x xs ih => simp only [List.map_cons, List.sum_cons, ih, Nat.mul_add]
theorem sum_map_zero {α : Type} (l : List α) : (l.map fun _ => 0).sum = 0 := by
  induction l with
  | nil => rfl
  | cons x xs ih => simpa using ih

/-- The count of a transaction is the BIP16/BIP141 cost (saturated at the largest size_t). BIP141 presumes BIP16. -/
theorem C25_transaction_cost (bip16 bip141 : Bool) (hb : bip141 = true → bip16 = true) (inputs : List SpendIn)
    (outputs : List (List Op)) (hi : ∀ i ∈ inputs, i.OK) (ho : ∀ o ∈ outputs, o.length < 2 ^ 57) :
    txSigops bip16 bip141 inputs outputs = min (txCost bip16 bip141 inputs outputs) maxSize := by
  unfold txSigops
  rw [foldl_cadd_min _ _ inputs (fun i h => inputSigops_eq bip16 bip141 hb i (hi i h)),
    foldl_cadd_min _ (fun o => (if bip141 then 4 else 1) * sigops false o) outputs (by
      intro o h
      obtain ⟨h1, h2⟩ := sigops_small (acc := false) (ho o h)
      unfold outputSigops
      rw [h1]
      simp only [wmul, maxSize]
      split_ifs <;> omega), cadd_min2]
  congr 1
  unfold txCost inputCost
  rw [sum_map_mul]
  cases bip141 with
  | false =>
    simp only [Bool.false_eq_true, if_false]
    rw [sum_map_add']
    cases bip16
    · simp only [Bool.false_eq_true, if_false, sum_map_zero]; eta_reduce; omega
    · simp only [if_true]; eta_reduce; omega
  | true =>
    simp only [if_true]
    rw [sum_map_add', sum_map_mul, sum_map_add']
    cases bip16
    · simp only [Bool.false_eq_true, if_false, sum_map_zero]; eta_reduce; omega
    · simp only [if_true]; eta_reduce; omega

/-- A block is over the limit exactly when its total cost is above 80000 (20000 unscaled before BIP141). -/
theorem C25_block_limit (bip16 bip141 : Bool) (hb : bip141 = true → bip16 = true)
    (txs : List (List SpendIn × List (List Op))) (hi : ∀ t ∈ txs, (∀ i ∈ t.1, i.OK) ∧ ∀ o ∈ t.2, o.length < 2 ^ 57) :
    sigopsLimited bip16 bip141 txs = true ↔ (if bip141 then 80000 else 20000) < blockCost bip16 bip141 txs := by
  unfold sigopsLimited blockSigops blockCost
  rw [foldl_cadd_min _ _ txs (fun t ht => C25_transaction_cost bip16 bip141 hb t.1 t.2 (hi t ht).1 (hi t ht).2)]
  rw [decide_eq_true_eq]
  simp only [maxSize]
  split_ifs <;> omega

/-- Non-vacuity: `2 CHECKMULTISIG` after a checksig counts 3 accurately and 21 coarsely; a P2SH spend of it costs 12. -/
example : sigops true [{ code := 172 }, { code := 82 }, { code := 174 }] = 3 ∧
    sigops false [{ code := 172 }, { code := 82 }, { code := 174 }] = 21 ∧
    inputSigops true true [{ code := 3, data := [172, 82, 174] }] [] (some [{ code := 169 }, { code := 20, data := List.replicate 20 0 }, { code := 135 }]) = 12 ∧
    SpendIn.OK { ops := [{ code := 3, data := [172, 82, 174] }], witness := [], prevout := none } := by
  refine ⟨by decide, by decide, by decide +kernel, ⟨by simp, by simp, by simp, by simp⟩⟩

end Verif
