import Verif.Spec.Script
import Verif.Props.Number
import Verif.Lemmas.Codec2
/-! Stack values and pure stack handlers against the byte-string specification. -/
namespace Verif.Machine
open Verif Verif.Num Verif.Spec Verif.Spec.Script

theorem magnitude_eq (n : Nat) : magnitude n = leBytes (byteWidth n) n := by
  induction n using Nat.strong_induction_on with
  | _ n ih =>
    rw [magnitude]
    split
    · rename_i h; subst h; rfl
    · rename_i h
      rw [ih (n / 256) (by omega)]
      obtain ⟨h1, h2, h3⟩ := byteWidth_pos h
      have : byteWidth n = byteWidth (n / 256) + 1 := by
        by_cases hz : n / 256 = 0
        · have hb : byteWidth n = 1 := byteWidth_unique (by omega) (by simp; omega) (by omega)
          rw [hb, hz]; rfl
        · obtain ⟨k1, k2, k3⟩ := byteWidth_pos hz
          refine byteWidth_unique (by omega) ?_ ?_
          · have : 256 ^ (byteWidth (n / 256) + 1 - 1) = 256 ^ (byteWidth (n / 256) - 1) * 256 := by
              rw [← pow_succ]; congr 1; omega
            rw [this]
            exact (Nat.le_div_iff_mul_le (by norm_num)).1 k2
          · rw [pow_succ]
            exact (Nat.div_lt_iff_lt_mul (by norm_num)).1 k3
      rw [this]
      simp [leBytes]

theorem encodeNum_eq (v : Int) : encodeNum v = chunkFromInteger v := by
  unfold encodeNum chunkFromInteger
  by_cases hv : v = 0
  · simp [hv]
  rw [if_neg hv, if_neg hv]
  obtain ⟨hl, hpos, hval, hneg⟩ := encode_cases v hv _ rfl
  have hm : magnitude v.natAbs = toLittleEndianSize v.natAbs := magnitude_eq _
  simp only [hm]
  generalize hb : toLittleEndianSize v.natAbs = b at *
  rcases List.eq_nil_or_concat b with rfl | ⟨init, last, rfl⟩
  · simp at hl; omega
  rw [List.concat_eq_append] at *
  rw [top_iff] at hneg
  have e1 : (init ++ [last]).getLastD 0 = last := by simp
  rw [e1]
  by_cases h : 0x80 ≤ last
  · rw [if_pos h, hneg.2 h]
    by_cases hn : v < 0 <;> simp [hn, negativeSign, positiveSign]
  · rw [if_neg h]
    have : isNegated v.natAbs = false := by
      cases hh : isNegated v.natAbs
      · rfl
      · exact absurd (hneg.1 hh) h
    rw [this]
    by_cases hn : v < 0
    · simp [hn]
      have hlt : last < 0x80 := by simpa using h
      have := or80 last hlt
      apply UInt8.toNat_inj.1
      rw [this, UInt8.toNat_add]
      have := UInt8.lt_iff_toNat_lt.1 hlt
      simp at this ⊢
      omega
    · simp [hn]

/-- Byte string of a value. -/
abbrev chunks (l : List Val) : List Bytes := l.map Val.toChunk

theorem toBool_eq (v : Val) : v.toBool = truthy v.toChunk := by
  have key : ∀ c, booleanFromChunk c = truthy c := by
    intro c
    have := C14_boolean c
    unfold truthy
    cases h : booleanFromChunk c
    · simp [this.1 h]
    · have : scriptNum c ≠ 0 := fun hh => by simp [this.2 hh] at h
      simp [this]
  cases v with
  | bool b => simp only [Val.toBool, Val.toChunk]; rw [← key]; exact (C14_boolean_variant 0 b).2
  | int i => simp only [Val.toBool, Val.toChunk]; rw [← key]; exact (C14_boolean_variant i true).1
  | chunk c => exact key c

theorem chunkFromBool_int (b : Bool) : chunkFromBool b = chunkFromInteger (if b then 1 else 0) := by cases b <;> decide

theorem toSigned_eq (n w : Nat) (hs : 0 < n) (hw : 8 * n ≤ w) (v : Val) : v.toSigned n w = num n v.toChunk := by
  cases v with
  | bool b =>
    rw [show (Val.bool b).toChunk = chunkFromBool b from rfl, chunkFromBool_int]
    unfold num
    rw [C14_encode_denotes, if_pos]
    · rfl
    cases b
    · simp [chunkFromInteger]
    · simp only [if_true]; rw [encode_one]; simp; omega
  | int i =>
    rw [show (Val.int i).toChunk = chunkFromInteger i from rfl,
      show (Val.int i).toSigned n w = integerFromInteger n i from rfl, C14_integer_variant n w hs hw, C14_decode n w hw]
    rfl
  | chunk c => exact C14_decode n w hw c

theorem toMinimalBool_eq (v : Val) :
    v.toMinimalBool = if v.toChunk = [] then some false else if v.toChunk = [1] then some true else none := by
  cases v with
  | bool b => cases b <;> rfl
  | int i =>
    rw [show (Val.int i).toChunk = chunkFromInteger i from rfl,
      show (Val.int i).toMinimalBool = minimalBoolFromInteger i from rfl,
      (C14_minimal_boolean [] i).2, (C14_minimal_boolean _ 0).1]
  | chunk c => exact (C14_minimal_boolean c 0).1

theorem toStrictBool_eq (v : Val) : v.toStrictBool = !(v.toChunk == []) := by
  cases v with
  | bool b => cases b <;> rfl
  | int i =>
    simp only [Val.toStrictBool, Val.toChunk, booleanFromInteger]
    by_cases h : i = 0
    · subst h; rfl
    · have : chunkFromInteger i ≠ [] := by
        intro hc
        have := C14_encode_denotes i
        rw [hc] at this
        simp [scriptNum] at this
        exact h this.symm
      have h2 : (chunkFromInteger i == []) = false := by simpa using this
      rw [h2]; simp [h]
  | chunk c => rfl

theorem size_eq (v : Val) : v.size = v.toChunk.length := by cases v <;> rfl

theorem chunkFromInteger_inj {i j : Int} : chunkFromInteger i = chunkFromInteger j ↔ i = j :=
  ⟨fun h => by rw [← C14_encode_denotes i, h, C14_encode_denotes], fun h => by rw [h]⟩

theorem chunkFromBool_inj {i j : Bool} : chunkFromBool i = chunkFromBool j ↔ i = j := by
  cases i <;> cases j <;> simp [chunkFromBool]

theorem equalChunks_eq (a b : Val) : a.equalChunks b = (b.toChunk == a.toChunk) := by
  rw [Bool.eq_iff_iff]
  cases a <;> cases b <;> simp only [Val.equalChunks, Val.toChunk, beq_iff_eq]
  · rw [chunkFromBool_inj]
  · rw [chunkFromBool_int, chunkFromInteger_inj]
  · rw [chunkFromBool_int, chunkFromInteger_inj]
  · rw [chunkFromInteger_inj]

theorem Small.length {v : Val} (h : Small v) : v.toChunk.length ≤ 520 := by
  cases v with
  | bool b => cases b <;> simp [Val.toChunk, chunkFromBool]
  | int i =>
    have := (encode_length_le_iff 8 (by norm_num) i).2 ⟨by unfold Small at h; omega, by unfold Small at h; omega⟩
    simp only [Val.toChunk]; omega
  | chunk c => exact h

/-! ### Evaluating handlers on the list container -/

theorem mbind {S α β : Type} (m : M S α) (f : α → M S β) (s : St S) : (m >>= f) s = (m s).bind fun p => f p.1 p.2 := rfl
theorem mpure {S α : Type} (a : α) (s : St S) : (pure a : M S α) s = some (a, s) := rfl
theorem mite {S α : Type} (c : Prop) [Decidable c] (a b : M S α) (s : St S) :
    (if c then a else b) s = if c then a s else b s := by split <;> rfl
theorem stackSize_eq (s : St (List Val)) : stackSize s = some (s.primary.length, s) := rfl
theorem isStackEmpty_eq (s : St (List Val)) : isStackEmpty s = some (s.primary.length == 0, s) := rfl
theorem top_eq (s : St (List Val)) : top s = s.primary.head?.map fun v => (v, s) := rfl
theorem peek_eq (i : Nat) (s : St (List Val)) : peek i s = s.primary[i]?.map fun v => (v, s) := rfl
theorem push_eq (v : Val) (s : St (List Val)) : push v s = some ((), { s with primary := v :: s.primary }) := rfl
theorem drop_cons (v : Val) (p : List Val) (s : St (List Val)) (h : s.primary = v :: p) :
    drop s = some ((), { s with primary := p }) := by
  show Option.map _ (match s.primary with | [] => none | _ :: t => some t) = _
  rw [h]; rfl
theorem swap_eq (i j : Nat) (s : St (List Val)) (a b : Val) (ha : s.primary[i]? = some a) (hb : s.primary[j]? = some b) :
    swap i j s = some ((), { s with primary := (s.primary.set i b).set j a }) := by
  show Option.map _ (match s.primary[i]?, s.primary[j]? with
    | some a, some b => some ((s.primary.set i b).set j a)
    | _, _ => none) = _
  rw [ha, hb]; rfl
theorem erase_eq (i : Nat) (s : St (List Val)) (h : i < s.primary.length) :
    erase i s = some ((), { s with primary := s.primary.eraseIdx i }) := by
  show Option.map _ (if i < s.primary.length then some (s.primary.eraseIdx i) else none) = _
  rw [if_pos h]; rfl

/-- The handler computes `f` on the byte strings of the stack and touches nothing else; when `f` fails it fails. -/
def PureRef (h : M (List Val) Res) (f : List Bytes → Option (List Bytes)) : Prop :=
  ∀ s : St (List Val), match f (chunks s.primary) with
    | some l => ∃ p, h s = some (none, { s with primary := p }) ∧ chunks p = l ∧
        ((∀ v ∈ s.primary, Small v) → s.primary.length ≤ 2 ^ 62 → ∀ v ∈ p, Small v)
    | none => ∃ err p, h s = some (some err, { s with primary := p })



macro "purefin" : tactic => `(tactic| first
  | exact ⟨_, _, rfl⟩
  | (refine ⟨_, rfl, rfl, ?_⟩; simp +contextual [StackImpl.push, Small]))

theorem opNop_ref (e : Env) : PureRef opNop (stackOp e 97) := by
  rintro ⟨p, _⟩
  rcases p with p
  all_goals purefin
theorem opDrop2_ref (e : Env) : PureRef opDrop2 (stackOp e 109) := by
  rintro ⟨p, _⟩
  rcases p with _ | ⟨a, _ | ⟨b, p⟩⟩
  all_goals purefin
theorem opDup2_ref (e : Env) : PureRef opDup2 (stackOp e 110) := by
  rintro ⟨p, _⟩
  rcases p with _ | ⟨a, _ | ⟨b, p⟩⟩
  all_goals purefin
theorem opDup3_ref (e : Env) : PureRef opDup3 (stackOp e 111) := by
  rintro ⟨p, _⟩
  rcases p with _ | ⟨a, _ | ⟨b, _ | ⟨c, p⟩⟩⟩
  all_goals purefin
theorem opOver2_ref (e : Env) : PureRef opOver2 (stackOp e 112) := by
  rintro ⟨p, _⟩
  rcases p with _ | ⟨a, _ | ⟨b, _ | ⟨c, _ | ⟨d, p⟩⟩⟩⟩
  all_goals purefin
theorem opRot2_ref (e : Env) : PureRef opRot2 (stackOp e 113) := by
  rintro ⟨p, _⟩
  rcases p with _ | ⟨a, _ | ⟨b, _ | ⟨c, _ | ⟨d, _ | ⟨x, _ | ⟨y, p⟩⟩⟩⟩⟩⟩
  all_goals purefin
theorem opSwap2_ref (e : Env) : PureRef opSwap2 (stackOp e 114) := by
  rintro ⟨p, _⟩
  rcases p with _ | ⟨a, _ | ⟨b, _ | ⟨c, _ | ⟨d, p⟩⟩⟩⟩
  all_goals purefin
theorem opDrop_ref (e : Env) : PureRef opDrop (stackOp e 117) := by
  rintro ⟨p, _⟩
  rcases p with _ | ⟨a, p⟩
  all_goals purefin
theorem opDup_ref (e : Env) : PureRef opDup (stackOp e 118) := by
  rintro ⟨p, _⟩
  rcases p with _ | ⟨a, p⟩
  all_goals purefin
theorem opNip_ref (e : Env) : PureRef opNip (stackOp e 119) := by
  rintro ⟨p, _⟩
  rcases p with _ | ⟨a, _ | ⟨b, p⟩⟩
  all_goals purefin
theorem opOver_ref (e : Env) : PureRef opOver (stackOp e 120) := by
  rintro ⟨p, _⟩
  rcases p with _ | ⟨a, _ | ⟨b, p⟩⟩
  all_goals purefin
theorem opRot_ref (e : Env) : PureRef opRot (stackOp e 123) := by
  rintro ⟨p, _⟩
  rcases p with _ | ⟨a, _ | ⟨b, _ | ⟨c, p⟩⟩⟩
  all_goals purefin
theorem opSwap_ref (e : Env) : PureRef opSwap (stackOp e 124) := by
  rintro ⟨p, _⟩
  rcases p with _ | ⟨a, _ | ⟨b, p⟩⟩
  all_goals purefin
theorem opTuck_ref (e : Env) : PureRef opTuck (stackOp e 125) := by
  rintro ⟨p, _⟩
  rcases p with _ | ⟨a, _ | ⟨b, p⟩⟩
  all_goals purefin
theorem opHash_ref (err : Err) (f : Bytes → Bytes) (g : List Bytes → Option (List Bytes)) (h0 : g [] = none)
    (h1 : ∀ a s, g (a :: s) = some (f a :: s))
    (hl : ∀ b, (f b).length ≤ 520) : PureRef (opHash err f) g := by
  rintro ⟨p, _⟩
  rcases p with _ | ⟨a, p⟩
  · simp only [chunks, List.map, h0]; exact ⟨_, _, rfl⟩
  · simp only [chunks, List.map, h1]
    refine ⟨_, rfl, rfl, ?_⟩; simp +contextual [StackImpl.push, Small, hl]
theorem op_rmd160_ref (e : Env) (he : e.HashSizes) : PureRef (opHash .op_ripemd160 e.rmd160) (stackOp e 166) :=
  opHash_ref _ _ _ rfl (fun a s => rfl) (fun b => by rw [he.rmd160]; norm_num)
theorem op_sha1_ref (e : Env) (he : e.HashSizes) : PureRef (opHash .op_sha1 e.sha1) (stackOp e 167) :=
  opHash_ref _ _ _ rfl (fun a s => rfl) (fun b => by rw [he.sha1]; norm_num)
theorem op_sha256_ref (e : Env) (he : e.HashSizes) : PureRef (opHash .op_sha256 e.sha256) (stackOp e 168) :=
  opHash_ref _ _ _ rfl (fun a s => rfl) (fun b => by rw [he.sha256]; norm_num)
theorem op_hash160_ref (e : Env) (he : e.HashSizes) : PureRef (opHash .op_hash160 e.hash160) (stackOp e 169) :=
  opHash_ref _ _ _ rfl (fun a s => rfl) (fun b => by rw [he.hash160]; norm_num)
theorem op_hash256_ref (e : Env) (he : e.HashSizes) : PureRef (opHash .op_hash256 e.hash256) (stackOp e 170) :=
  opHash_ref _ _ _ rfl (fun a s => rfl) (fun b => by rw [he.hash256]; norm_num)


section mk
variable (v : Val) (p : List Val) (al : List Val) (co : List Bool) (ne : Int) (no bu o : Nat) (ca : Cache)
theorem drop_mk : drop ⟨v :: p, al, co, ne, no, bu, o, ca⟩ = some ((), ⟨p, al, co, ne, no, bu, o, ca⟩) := rfl
theorem top_mk : top ⟨v :: p, al, co, ne, no, bu, o, ca⟩ = some (v, ⟨v :: p, al, co, ne, no, bu, o, ca⟩) := rfl
theorem push_mk : push v ⟨p, al, co, ne, no, bu, o, ca⟩ = some ((), ⟨v :: p, al, co, ne, no, bu, o, ca⟩) := rfl
theorem stackSize_mk : stackSize ⟨p, al, co, ne, no, bu, o, ca⟩ = some (p.length, ⟨p, al, co, ne, no, bu, o, ca⟩) := rfl
theorem isStackEmpty_mk : isStackEmpty ⟨v :: p, al, co, ne, no, bu, o, ca⟩ = some (false, ⟨v :: p, al, co, ne, no, bu, o, ca⟩) := rfl
theorem isStackEmpty_nil : isStackEmpty ⟨([] : List Val), al, co, ne, no, bu, o, ca⟩ = some (true, ⟨[], al, co, ne, no, bu, o, ca⟩) := rfl
theorem popSigned_mk : popSigned32_ ⟨v :: p, al, co, ne, no, bu, o, ca⟩ = some (num 4 v.toChunk, ⟨p, al, co, ne, no, bu, o, ca⟩) := by
  show some (v.toSigned 4 32, _) = _
  rw [toSigned_eq 4 32 (by omega) (by omega)]
theorem popChunk_mk : popChunk ⟨v :: p, al, co, ne, no, bu, o, ca⟩ = some (v.toChunk, ⟨p, al, co, ne, no, bu, o, ca⟩) := rfl
theorem peekBool_mk : peekBool ⟨v :: p, al, co, ne, no, bu, o, ca⟩ = some (truthy v.toChunk, ⟨v :: p, al, co, ne, no, bu, o, ca⟩) := by
  rw [← toBool_eq]; rfl
end mk

theorem num_range {b : Bytes} {n : Int} (h : num 4 b = some n) : -(2 ^ 31 - 1) ≤ n ∧ n ≤ 2 ^ 31 - 1 := by
  unfold num at h
  split at h
  · cases h; exact scriptNum_range (size := 4) (by norm_num) (by assumption)
  · cases h

theorem opVerify_ref (e : Env) : PureRef opVerify (stackOp e 105) := by
  rintro ⟨p, _⟩
  rcases p with _ | ⟨a, p⟩
  · purefin
  · simp only [stackOp, chunks, List.map, opVerify, mbind, mpure, mite, isStackEmpty_mk, peekBool_mk, drop_mk, Option.bind_some]
    cases truthy a.toChunk
    · purefin
    · refine ⟨_, rfl, rfl, ?_⟩; simp +contextual

theorem opIfDup_ref (e : Env) : PureRef opIfDup (stackOp e 115) := by
  rintro ⟨p, _⟩
  rcases p with _ | ⟨a, p⟩
  · purefin
  · simp only [stackOp, chunks, List.map, opIfDup, mbind, mpure, mite, isStackEmpty_mk, peekBool_mk, top_mk, push_mk, Option.bind_some]
    cases truthy a.toChunk
    · refine ⟨_, rfl, rfl, ?_⟩; simp +contextual
    · refine ⟨_, rfl, rfl, ?_⟩; simp +contextual

theorem opDepth_ref (e : Env) : PureRef opDepth (stackOp e 116) := by
  rintro ⟨p, _⟩
  refine ⟨_, rfl, ?_, ?_⟩
  · show chunkFromInteger p.length :: _ = _
    rw [encodeNum_eq]; simp
  · simp +contextual [StackImpl.push, Small, StackImpl.size]

theorem opSize_ref (e : Env) : PureRef opSize (stackOp e 130) := by
  rintro ⟨p, _⟩
  rcases p with _ | ⟨a, p⟩
  · purefin
  · refine ⟨_, rfl, ?_, ?_⟩
    · show chunkFromInteger a.size :: _ = _
      rw [encodeNum_eq, size_eq]; simp
    · intro hs _ v hv
      have h0 : a.size ≤ 520 := by rw [size_eq]; exact (hs a (by simp)).length
      rcases List.mem_cons.1 hv with rfl | hv
      · show _ ≤ _ ∧ _ ≤ _
        omega
      · exact hs v hv

theorem opEqual_ref (e : Env) : PureRef opEqual (stackOp e 135) := by
  rintro ⟨p, _⟩
  rcases p with _ | ⟨a, _ | ⟨b, p⟩⟩
  · purefin
  · purefin
  · refine ⟨_, rfl, ?_, ?_⟩
    · show chunkFromBool (a.equalChunks b) :: _ = _
      rw [equalChunks_eq]; rfl
    · simp +contextual [StackImpl.push, Small]

theorem opEqualVerify_ref (e : Env) : PureRef opEqualVerify (stackOp e 136) := by
  rintro ⟨p, _⟩
  rcases p with _ | ⟨a, _ | ⟨b, p⟩⟩
  · purefin
  · purefin
  · by_cases h : b.toChunk = a.toChunk
    · have h2 : a.equalChunks b = true := by rw [equalChunks_eq]; simpa using h
      simp only [stackOp, chunks, List.map, h, if_true]
      refine ⟨p, ?_, rfl, by simp +contextual⟩
      show some (if a.equalChunks b = true then none else _, _) = _
      rw [h2]; rfl
    · have h2 : a.equalChunks b = false := by rw [equalChunks_eq]; simpa using h
      simp only [stackOp, chunks, List.map, h, if_false]
      refine ⟨.op_equal_verify2, p, ?_⟩
      show some (if a.equalChunks b = true then none else _, _) = _
      rw [h2]; rfl

theorem opUnary_ref (err : Err) (f : Int → Val) (g : Int → Bytes)
    (hf : ∀ n, (f n).toChunk = g n) (hs : ∀ n : Int, -(2 ^ 31 - 1) ≤ n → n ≤ 2 ^ 31 - 1 → Small (f n)) : PureRef (opUnary err f) (unary g) := by
  rintro ⟨p, _⟩
  rcases p with _ | ⟨a, p⟩
  · exact ⟨_, _, rfl⟩
  · simp only [unary, chunks, List.map, opUnary, popSigned32, mbind, mpure, mite, isStackEmpty_mk, Option.bind_some, popSigned_mk]
    cases h : num 4 a.toChunk with
    | none => exact ⟨_, _, rfl⟩
    | some n =>
      refine ⟨_, rfl, ?_, ?_⟩
      · show (f n).toChunk :: _ = _
        rw [hf]
      · have := num_range h
        have := hs n this.1 this.2
        simp +contextual [StackImpl.push, this]

theorem opBinary_ref (err : Err) (f : Int → Int → Val) (g : Int → Int → Bytes)
    (hf : ∀ m n, (f m n).toChunk = g m n)
    (hs : ∀ m n : Int, -(2 ^ 31 - 1) ≤ n → n ≤ 2 ^ 31 - 1 → -(2 ^ 31 - 1) ≤ m → m ≤ 2 ^ 31 - 1 → Small (f m n)) :
    PureRef (opBinary err f) (binary g) := by
  rintro ⟨p, _⟩
  rcases p with _ | ⟨b, _ | ⟨a, p⟩⟩
  · exact ⟨_, _, rfl⟩
  · exact ⟨_, _, rfl⟩
  · simp only [binary, chunks, List.map, opBinary, popBinary32, mbind, mpure, mite, stackSize_mk, Option.bind_some, popSigned_mk,
      List.length_cons, show ¬ (p.length + 1 + 1 < 2) by omega, if_false]
    cases h : num 4 b.toChunk with
    | none => cases num 4 a.toChunk <;> exact ⟨_, _, rfl⟩
    | some n =>
      simp only [mbind, popSigned_mk, Option.bind_some]
      cases h2 : num 4 a.toChunk with
      | none => exact ⟨_, _, rfl⟩
      | some m =>
        refine ⟨_, rfl, ?_, ?_⟩
        · show (f m n).toChunk :: _ = _
          rw [hf]
        · have h3 := num_range h
          have h4 := num_range h2
          have := hs m n h3.1 h3.2 h4.1 h4.2
          simp +contextual [StackImpl.push, this]

theorem opNumEqualVerify_ref (e : Env) : PureRef opNumEqualVerify (stackOp e 157) := by
  rintro ⟨p, _⟩
  rcases p with _ | ⟨b, _ | ⟨a, p⟩⟩
  · purefin
  · purefin
  · simp only [stackOp, chunks, List.map, opNumEqualVerify, popBinary32, mbind, mpure, mite, stackSize_mk, Option.bind_some, popSigned_mk,
      List.length_cons, show ¬ (p.length + 1 + 1 < 2) by omega, if_false]
    cases h : num 4 b.toChunk with
    | none => cases num 4 a.toChunk <;> purefin
    | some n =>
      simp only [mbind, popSigned_mk, Option.bind_some]
      cases h2 : num 4 a.toChunk with
      | none => purefin
      | some m =>
        simp only [mpure, bind, Option.bind]
        by_cases hm : m = n
        · simp only [hm, if_true]
          exact ⟨p, rfl, rfl, by simp +contextual⟩
        · simp only [hm, if_false]
          exact ⟨_, _, rfl⟩

theorem opWithin_ref (e : Env) : PureRef opWithin (stackOp e 165) := by
  rintro ⟨p, _⟩
  rcases p with _ | ⟨c, _ | ⟨b, _ | ⟨a, p⟩⟩⟩
  · purefin
  · purefin
  · purefin
  · simp only [stackOp, chunks, List.map, opWithin, popTernary32, mbind, mpure, mite, stackSize_mk, Option.bind_some, popSigned_mk,
      List.length_cons, show ¬ (p.length + 1 + 1 + 1 < 3) by omega, if_false]
    cases h : num 4 c.toChunk with
    | none => cases num 4 b.toChunk <;> cases num 4 a.toChunk <;> purefin
    | some n =>
      simp only [mbind, popSigned_mk, Option.bind_some]
      cases h2 : num 4 b.toChunk with
      | none => cases num 4 a.toChunk <;> purefin
      | some m =>
        simp only [mbind, popSigned_mk, Option.bind_some]
        cases h3 : num 4 a.toChunk with
        | none => purefin
        | some x =>
          refine ⟨_, rfl, ?_, ?_⟩
          · show chunkFromBool _ :: _ = encodeBool _ :: _
            congr 1
            show chunkFromBool _ = chunkFromBool _
            congr 1
            rw [Bool.eq_iff_iff]; simp
          · simp +contextual [StackImpl.push, Small]

theorem popIndex_cons (a : Val) (p al co ne no bu o ca) :
    popIndex32 (S := List Val) ⟨a :: p, al, co, ne, no, bu, o, ca⟩ = some (index a.toChunk (chunks p), ⟨p, al, co, ne, no, bu, o, ca⟩) := by
  simp only [popIndex32, popSigned32, mbind, mpure, mite, isStackEmpty_mk, Option.bind_some, popSigned_mk, index,
    Bool.false_eq_true, if_false]
  cases num 4 a.toChunk with
  | none => rfl
  | some n =>
    simp only [mbind, mpure, mite, stackSize_mk, Option.bind_eq_bind, Option.bind_some, List.length_map]
    by_cases h1 : n < 0
    · simp [h1, show ¬ (0 ≤ n ∧ n < (p.length : Int)) by omega]
    · by_cases h2 : n.toNat < p.length
      · simp [h1, h2, show (0 ≤ n ∧ n < (p.length : Int)) by omega]
      · simp [h1, h2, show ¬ (0 ≤ n ∧ n < (p.length : Int)) by omega]

theorem index_lt {a : Bytes} {s : List Bytes} {i : Nat} (h : index a s = some i) : i < s.length := by
  unfold index at h
  cases hn : num 4 a with
  | none => simp [hn] at h
  | some n =>
    simp [hn] at h
    omega

theorem erase_mk {p : List Val} {i : Nat} (h : i < p.length) (al co ne no bu o ca) :
    erase i ⟨p, al, co, ne, no, bu, o, ca⟩ = some ((), ⟨p.eraseIdx i, al, co, ne, no, bu, o, ca⟩) :=
  erase_eq i _ h
theorem peek_mk {p : List Val} {i : Nat} (h : i < p.length) (al co ne no bu o ca) :
    peek i ⟨p, al, co, ne, no, bu, o, ca⟩ = some (p[i], ⟨p, al, co, ne, no, bu, o, ca⟩) := by
  rw [peek_eq]; simp [h]

theorem opPick_ref (e : Env) : PureRef opPick (stackOp e 121) := by
  rintro ⟨p, _⟩
  rcases p with _ | ⟨a, p⟩
  · purefin
  · simp only [stackOp, chunks, List.map, opPick, mbind, Option.bind_some, popIndex_cons]
    cases h : index a.toChunk (chunks p) with
    | none => exact ⟨_, _, rfl⟩
    | some i =>
      have hi : i < p.length := by simpa using index_lt h
      simp only [List.getElem?_map, List.getElem?_eq_getElem hi, mbind, peek_mk hi, Option.bind_some, Option.map_some, push_mk, mpure,
        Option.bind_eq_bind, Option.pure_def]
      refine ⟨_, rfl, by simp, ?_⟩
      simp +contextual

theorem map_eraseIdx {α β : Type} (f : α → β) (l : List α) (i : Nat) : (l.eraseIdx i).map f = (l.map f).eraseIdx i := by
  induction l generalizing i with
  | nil => rfl
  | cons a l ih => cases i <;> simp [ih]

theorem opRoll_ref (e : Env) : PureRef opRoll (stackOp e 122) := by
  rintro ⟨p, _⟩
  rcases p with _ | ⟨a, p⟩
  · purefin
  · simp only [stackOp, chunks, List.map, opRoll, mbind, Option.bind_some, popIndex_cons]
    cases h : index a.toChunk (chunks p) with
    | none => exact ⟨_, _, rfl⟩
    | some i =>
      have hi : i < p.length := by simpa using index_lt h
      simp only [List.getElem?_map, List.getElem?_eq_getElem hi, mbind, peek_mk hi, Option.bind_some, Option.map_some, push_mk, mpure,
        Option.bind_eq_bind, Option.pure_def, erase_mk hi]
      refine ⟨_, rfl, by simp [map_eraseIdx], ?_⟩
      simp +contextual
      intro _ hs _ v hv
      exact hs v (List.mem_of_mem_eraseIdx hv)

end Verif.Machine
