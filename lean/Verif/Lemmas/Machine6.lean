import Verif.Lemmas.Machine5
import Mathlib.Tactic.IntervalCases
/-! Dispatch: every operation implements the specification. -/
namespace Verif.Machine
open Verif Verif.Num Verif.Spec Verif.Spec.Script

theorem Refines.congr {e : Env} {h : M (List Val) Res} {f g : State → Option State} (hr : Refines e h f) (hfg : g = f) :
    Refines e h g := hfg ▸ hr

theorem bnum (n : Int) : (Val.int n).toChunk = encodeNum n := (encodeNum_eq n).symm
theorem bbool {b b' : Bool} (h : b = b') : (Val.bool b).toChunk = encodeBool b' := by rw [h]; rfl

theorem unary_num (e : Env) (err : Err) (f : Int → Int)
    (hf : ∀ n : Int, -(2 ^ 31 - 1) ≤ n → n ≤ 2 ^ 31 - 1 → -2 ^ 62 ≤ f n ∧ f n ≤ 2 ^ 62) :
    Refines e (opUnary err fun n => .int (f n)) (fun t => onStack t (unary (fun n => encodeNum (f n)) t.stack)) :=
  (opUnary_ref err _ _ (fun n => bnum (f n)) hf).refines
theorem unary_bool (e : Env) (err : Err) (f g : Int → Bool)
    (hf : ∀ n, f n = g n) :
    Refines e (opUnary err fun n => .bool (f n)) (fun t => onStack t (unary (fun n => encodeBool (g n)) t.stack)) :=
  (opUnary_ref err _ _ (fun n => bbool (hf n)) (fun _ _ _ => trivial)).refines
theorem binary_num (e : Env) (err : Err) (f g : Int → Int → Int) (hfg : ∀ m n, f m n = g m n)
    (hf : ∀ m n : Int, -(2 ^ 31 - 1) ≤ n → n ≤ 2 ^ 31 - 1 → -(2 ^ 31 - 1) ≤ m → m ≤ 2 ^ 31 - 1 → -2 ^ 62 ≤ f m n ∧ f m n ≤ 2 ^ 62) :
    Refines e (opBinary err fun l r => .int (f l r)) (fun t => onStack t (binary (fun a b => encodeNum (g a b)) t.stack)) :=
  (opBinary_ref err (fun l r => .int (f l r)) _ (fun m n => by rw [bnum, hfg]) hf).refines
theorem binary_bool (e : Env) (err : Err) (f g : Int → Int → Bool)
    (hf : ∀ m n, f m n = g m n) :
    Refines e (opBinary err fun l r => .bool (f l r)) (fun t => onStack t (binary (fun a b => encodeBool (g a b)) t.stack)) :=
  (opBinary_ref err _ _ (fun m n => bbool (hf m n)) (fun _ _ _ _ _ _ => trivial)).refines

theorem nop_refines (e : Env) : Refines e opNop (fun t => onStack t (some t.stack)) :=
  fun s t hr => ⟨none, s, rfl, t, rfl, hr, fun w => w.1⟩

theorem uneval_refines (e : Env) (code : UInt8) : Refines e (pure (unevaluated code)) (fun _ => none) :=
  fun s _ _ => ⟨_, s, rfl, .inl rfl⟩
theorem nops_refines (e : Env) (code : UInt8) : Refines e (opNops e code) (fun _ => none) := by
  unfold opNops; split
  · exact uneval_refines e code
  · exact fails_refines
theorem cats_refines (e : Env) (code : UInt8) : Refines e (opCats e code) (fun _ => none) := by
  unfold opCats; split
  · exact uneval_refines e code
  · exact fails_refines

theorem encodeNum_small (n : Nat) (h1 : 1 ≤ n) (h2 : n ≤ 16) : encodeNum (n : Int) = [UInt8.ofNat n] := by
  rw [encodeNum_eq]
  have : n = 1 ∨ n = 2 ∨ n = 3 ∨ n = 4 ∨ n = 5 ∨ n = 6 ∨ n = 7 ∨ n = 8 ∨ n = 9 ∨ n = 10 ∨ n = 11 ∨ n = 12 ∨ n = 13 ∨ n = 14 ∨ n = 15 ∨ n = 16 := by omega
  rcases this with rfl | rfl | rfl | rfl | rfl | rfl | rfl | rfl | rfl | rfl | rfl | rfl | rfl | rfl | rfl | rfl <;> decide

theorem stackOp_nop (e : Env) (n : Nat) (s : List Bytes) (h : n = 176 ∨ (179 ≤ n ∧ n ≤ 185)) : stackOp e n s = some s := by
  have : n = 176 ∨ n = 179 ∨ n = 180 ∨ n = 181 ∨ n = 182 ∨ n = 183 ∨ n = 184 ∨ n = 185 := by omega
  rcases this with rfl | rfl | rfl | rfl | rfl | rfl | rfl | rfl <;> rfl
theorem stackOp_high (e : Env) (n : Nat) (s : List Bytes) (h : 187 ≤ n) (h2 : n < 256) : stackOp e n s = none := by
  interval_cases n <;> rfl

theorem runOp_refines (e : Env) (i : Nat) (op : Op) (hops : ∀ o ∈ e.ops, o.Consistent) (hh : e.HashSizes)
    (htot : e.flags.bip342 = false → ∀ sub f, (e.sighash sub f).isSome = true)
    (hop : op.Consistent) (hlen : op.data.length ≤ 520) : Refines e (runOp e i op) (execute e i op) := by
  have ex : ∀ n, op.code.toNat = n → 96 < n → (n ∉ [99, 100, 103, 104, 107, 108, 171, 172, 173, 174, 175, 177, 178, 186]) →
      execute e i op = fun t => onStack t (stackOp e n t.stack) := by
    intro n hn h1 h2
    funext t
    simp only [List.mem_cons, List.not_mem_nil, or_false, not_or] at h2
    unfold execute
    simp only [hn]
    rw [if_neg (by omega), if_neg (by omega), if_neg (by omega), if_neg (by omega)]
    split <;> first | omega | rfl
  have hcode : op.code.toNat < 256 := op.code.toNat_lt
  have le78 : op.code.toNat ≤ 78 → op.code ≤ 78 := fun h => UInt8.le_iff_toNat_le.2 h
  unfold runOp
  split
  · -- 0
    rename_i h
    refine (opPushNumber_refines e 0 (by norm_num)).congr ?_
    funext t; simp [execute, h, encodeNum]
  · rename_i h
    refine (opPushSize_refines e _ op hop (le78 (by omega)) hlen).congr ?_
    funext t; simp [execute, h]
  · rename_i h
    refine (opPushSize_refines e _ op hop (le78 (by omega)) hlen).congr ?_
    funext t; simp [execute, h]
  · rename_i h
    refine (opPushSize_refines e _ op hop (le78 (by omega)) hlen).congr ?_
    funext t; simp [execute, h]
  · rename_i h
    refine (opPushNumber_refines e (-1) (by norm_num)).congr ?_
    funext t; simp only [execute, h]; rw [encodeNum_eq]; rfl
  · rename_i h; refine (uneval_refines e _).congr ?_
    funext t; simp [execute, h, stackOp, onStack]
  · rename_i h; exact (nop_refines e).congr (ex _ h (by decide) (by decide))
  · rename_i h; exact (nops_refines e _).congr (ex _ h (by decide) (by decide))
  · rename_i h; refine (opIf_refines e).congr ?_; funext t; simp [execute, h]
  · rename_i h; refine (opNotif_refines e).congr ?_; funext t; simp [execute, h]
  · rename_i h; exact (nops_refines e _).congr (ex _ h (by decide) (by decide))
  · rename_i h; exact (nops_refines e _).congr (ex _ h (by decide) (by decide))
  · rename_i h; refine (opElse_refines e).congr ?_; funext t; simp [execute, h]; rfl
  · rename_i h; refine (opEndif_refines e).congr ?_; funext t; simp [execute, h]; rfl
  · rename_i h; exact ((opVerify_ref e).refines).congr (ex _ h (by decide) (by decide))
  · rename_i h; exact (nops_refines e _).congr (ex _ h (by decide) (by decide))
  · rename_i h; refine (opToAlt_refines e).congr ?_; funext t; simp [execute, h]; rfl
  · rename_i h; refine (opFromAlt_refines e).congr ?_; funext t; simp [execute, h]; rfl
  · rename_i h; exact ((opDrop2_ref e).refines).congr (ex _ h (by decide) (by decide))
  · rename_i h; exact ((opDup2_ref e).refines).congr (ex _ h (by decide) (by decide))
  · rename_i h; exact ((opDup3_ref e).refines).congr (ex _ h (by decide) (by decide))
  · rename_i h; exact ((opOver2_ref e).refines).congr (ex _ h (by decide) (by decide))
  · rename_i h; exact ((opRot2_ref e).refines).congr (ex _ h (by decide) (by decide))
  · rename_i h; exact ((opSwap2_ref e).refines).congr (ex _ h (by decide) (by decide))
  · rename_i h; exact ((opIfDup_ref e).refines).congr (ex _ h (by decide) (by decide))
  · rename_i h; exact ((opDepth_ref e).refines).congr (ex _ h (by decide) (by decide))
  · rename_i h; exact ((opDrop_ref e).refines).congr (ex _ h (by decide) (by decide))
  · rename_i h; exact ((opDup_ref e).refines).congr (ex _ h (by decide) (by decide))
  · rename_i h; exact ((opNip_ref e).refines).congr (ex _ h (by decide) (by decide))
  · rename_i h; exact ((opOver_ref e).refines).congr (ex _ h (by decide) (by decide))
  · rename_i h; exact ((opPick_ref e).refines).congr (ex _ h (by decide) (by decide))
  · rename_i h; exact ((opRoll_ref e).refines).congr (ex _ h (by decide) (by decide))
  · rename_i h; exact ((opRot_ref e).refines).congr (ex _ h (by decide) (by decide))
  · rename_i h; exact ((opSwap_ref e).refines).congr (ex _ h (by decide) (by decide))
  · rename_i h; exact ((opTuck_ref e).refines).congr (ex _ h (by decide) (by decide))
  · rename_i h; exact (cats_refines e _).congr (ex _ h (by decide) (by decide))
  · rename_i h; exact (cats_refines e _).congr (ex _ h (by decide) (by decide))
  · rename_i h; exact (cats_refines e _).congr (ex _ h (by decide) (by decide))
  · rename_i h; exact (cats_refines e _).congr (ex _ h (by decide) (by decide))
  · rename_i h; exact ((opSize_ref e).refines).congr (ex _ h (by decide) (by decide))
  · rename_i h; exact (cats_refines e _).congr (ex _ h (by decide) (by decide))
  · rename_i h; exact (cats_refines e _).congr (ex _ h (by decide) (by decide))
  · rename_i h; exact (cats_refines e _).congr (ex _ h (by decide) (by decide))
  · rename_i h; exact (cats_refines e _).congr (ex _ h (by decide) (by decide))
  · rename_i h; exact ((opEqual_ref e).refines).congr (ex _ h (by decide) (by decide))
  · rename_i h; exact ((opEqualVerify_ref e).refines).congr (ex _ h (by decide) (by decide))
  · rename_i h; exact (uneval_refines e _).congr (ex _ h (by decide) (by decide))
  · rename_i h; exact (uneval_refines e _).congr (ex _ h (by decide) (by decide))
  · rename_i h; exact (unary_num e _ (fun n => n + 1) (by intros; omega)).congr (ex _ h (by decide) (by decide))
  · rename_i h; exact (unary_num e _ (fun n => n - 1) (by intros; omega)).congr (ex _ h (by decide) (by decide))
  · rename_i h; exact (cats_refines e _).congr (ex _ h (by decide) (by decide))
  · rename_i h; exact (cats_refines e _).congr (ex _ h (by decide) (by decide))
  · rename_i h; exact (unary_num e _ (fun n => -n) (by intros; omega)).congr (ex _ h (by decide) (by decide))
  · rename_i h
    have := unary_num e .op_abs (fun n => if n < 0 then -n else n) (by intros; split <;> omega)
    refine this.congr ((ex _ h (by decide) (by decide)).trans ?_)
    funext t
    show onStack t (unary (fun n => encodeNum n.natAbs) t.stack) = _
    congr 2
    funext n
    congr 1
    split <;> omega
  · rename_i h; exact (unary_bool e _ _ (fun n => n == 0) (fun _ => rfl)).congr (ex _ h (by decide) (by decide))
  · rename_i h; exact (unary_bool e _ _ (fun n => n != 0) (fun _ => rfl)).congr (ex _ h (by decide) (by decide))
  · rename_i h; exact (binary_num e _ (fun l r => l + r) _ (fun _ _ => rfl) (by intros; omega)).congr (ex _ h (by decide) (by decide))
  · rename_i h; exact (binary_num e _ (fun l r => l - r) _ (fun _ _ => rfl) (by intros; omega)).congr (ex _ h (by decide) (by decide))
  · rename_i h; exact (cats_refines e _).congr (ex _ h (by decide) (by decide))
  · rename_i h; exact (cats_refines e _).congr (ex _ h (by decide) (by decide))
  · rename_i h; exact (cats_refines e _).congr (ex _ h (by decide) (by decide))
  · rename_i h; exact (cats_refines e _).congr (ex _ h (by decide) (by decide))
  · rename_i h; exact (cats_refines e _).congr (ex _ h (by decide) (by decide))
  · rename_i h; exact (binary_bool e _ (fun l r => l != 0 && r != 0) _ (fun l r => by rw [Bool.eq_iff_iff]; simp)).congr (ex _ h (by decide) (by decide))
  · rename_i h; exact (binary_bool e _ (fun l r => l != 0 || r != 0) _ (fun l r => by rw [Bool.eq_iff_iff]; simp)).congr (ex _ h (by decide) (by decide))
  · rename_i h; exact (binary_bool e _ (fun l r => l == r) _ (fun l r => by rw [Bool.eq_iff_iff]; simp)).congr (ex _ h (by decide) (by decide))
  · rename_i h; exact ((opNumEqualVerify_ref e).refines).congr (ex _ h (by decide) (by decide))
  · rename_i h; exact (binary_bool e _ (fun l r => l != r) _ (fun l r => by rw [Bool.eq_iff_iff]; simp)).congr (ex _ h (by decide) (by decide))
  · rename_i h; exact (binary_bool e _ (fun l r => decide (l < r)) _ (fun l r => rfl)).congr (ex _ h (by decide) (by decide))
  · rename_i h; exact (binary_bool e _ (fun l r => decide (l > r)) _ (fun l r => rfl)).congr (ex _ h (by decide) (by decide))
  · rename_i h; exact (binary_bool e _ (fun l r => !decide (l > r)) _ (fun l r => by rw [Bool.eq_iff_iff]; simp)).congr (ex _ h (by decide) (by decide))
  · rename_i h; exact (binary_bool e _ (fun l r => !decide (l < r)) _ (fun l r => by rw [Bool.eq_iff_iff]; simp)).congr (ex _ h (by decide) (by decide))
  · rename_i h; exact (binary_num e _ (fun l r => if l < r then l else r) (fun a b => min a b) (fun l r => by split <;> omega)
      (by intros; split <;> omega)).congr (ex _ h (by decide) (by decide))
  · rename_i h; exact (binary_num e _ (fun l r => if l > r then l else r) (fun a b => max a b) (fun l r => by split <;> omega)
      (by intros; split <;> omega)).congr (ex _ h (by decide) (by decide))
  · rename_i h; exact ((opWithin_ref e).refines).congr (ex _ h (by decide) (by decide))
  · rename_i h; exact ((op_rmd160_ref e hh).refines).congr (ex _ h (by decide) (by decide))
  · rename_i h; exact ((op_sha1_ref e hh).refines).congr (ex _ h (by decide) (by decide))
  · rename_i h; exact ((op_sha256_ref e hh).refines).congr (ex _ h (by decide) (by decide))
  · rename_i h; exact ((op_hash160_ref e hh).refines).congr (ex _ h (by decide) (by decide))
  · rename_i h; exact ((op_hash256_ref e hh).refines).congr (ex _ h (by decide) (by decide))
  · rename_i h; refine (opCodeseparator_refines e i).congr ?_; funext t; simp [execute, h]
  · rename_i h; refine (opCheckSig_refines e hops).congr ?_; funext t; simp [execute, h]
  · rename_i h; refine (opCheckSigVerify_refines e hops).congr ?_; funext t; simp [execute, h]
  · rename_i h; refine (opCheckMultisig_refines e hops htot).congr ?_; funext t; simp [execute, h]
  · rename_i h; refine (opCheckMultisigVerify_refines e hops htot).congr ?_; funext t; simp [execute, h]
  · rename_i h; refine (opCltv_refines e).congr ?_; funext t; simp [execute, h]
  · rename_i h; refine (opCsv_refines e).congr ?_; funext t; simp [execute, h]
  · rename_i h; refine (opCheckSigAdd_refines e).congr ?_; funext t; simp [execute, h]; rfl
  · -- ranges
    have hcases : (1 ≤ op.code.toNat ∧ op.code.toNat ≤ 75) ∨ (81 ≤ op.code.toNat ∧ op.code.toNat ≤ 96) ∨
        (op.code.toNat = 176 ∨ (179 ≤ op.code.toNat ∧ op.code.toNat ≤ 185)) ∨ 187 ≤ op.code.toNat := by
      clear hh htot hop hops hlen ex
      simp only [imp_false] at *
      omega
    clear * - hh htot hop hops hlen ex hcases le78 hcode
    generalize hc : op.code.toNat = c at hcases hcode le78 ⊢
    rcases hcases with h | h | h | h
    · rw [if_pos h.2]
      refine (opPushSize_refines e _ op hop (le78 (by omega)) hlen).congr ?_
      funext t
      unfold execute
      simp only [hc]
      rw [if_neg (by omega), if_pos (by omega)]
    · rw [if_neg (by omega), if_pos h.2]
      refine (opPushNumber_refines e _ (by omega)).congr ?_
      funext t
      unfold execute
      simp only [hc]
      rw [if_neg (by omega), if_neg (by omega), if_neg (by omega), if_pos h]
      rw [show (c : Int) - 80 = ((c - 80 : Nat) : Int) by omega, encodeNum_small _ (by omega) (by omega)]
    · rw [if_neg (by omega), if_neg (by omega), if_pos h]
      refine (nop_refines e).congr ((ex c hc (by omega) (by simp; omega)).trans ?_)
      funext t
      rw [stackOp_nop e c t.stack h]
    · rw [if_neg (by omega), if_neg (by omega), if_neg (by omega)]
      refine (uneval_refines e _).congr ((ex c hc (by omega) (by simp; omega)).trans ?_)
      funext t
      rw [stackOp_high e c t.stack h hcode]; rfl

end Verif.Machine
