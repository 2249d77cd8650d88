import Verif.Model.Machine
/-! Homomorphisms between stack containers, for the container independence property. -/
namespace Verif.Machine
open Verif Verif.Num

/-- `φ` reads a container as the list of its elements, top first, and commutes with every container operation. -/
structure Lawful {S : Type} [StackImpl S] (φ : S → List Val) : Prop where
  size : ∀ s, StackImpl.size s = (φ s).length
  push : ∀ v s, φ (StackImpl.push v s) = v :: φ s
  top : ∀ s : S, StackImpl.top s = StackImpl.top (φ s)
  drop : ∀ s : S, (StackImpl.drop s).map φ = StackImpl.drop (φ s)
  peek : ∀ i (s : S), StackImpl.peek i s = StackImpl.peek i (φ s)
  swap : ∀ i j (s : S), (StackImpl.swap i j s).map φ = StackImpl.swap i j (φ s)
  erase : ∀ i (s : S), (StackImpl.erase i s).map φ = StackImpl.erase i (φ s)

def St.map {S T : Type} (φ : S → T) (s : St S) : St T := { s with primary := φ s.primary }

variable {S : Type} [StackImpl S]

/-- `h2` on the list does what `h1` does on the container. -/
def Hom (φ : S → List Val) {α : Type} (h1 : M S α) (h2 : M (List Val) α) : Prop :=
  ∀ s, h2 (s.map φ) = (h1 s).map fun (a, s') => (a, s'.map φ)

namespace Hom
variable {φ : S → List Val}

theorem bind {α β : Type} {h1 : M S α} {h2 : M (List Val) α} {k1 : α → M S β} {k2 : α → M (List Val) β}
    (h : Hom φ h1 h2) (k : ∀ a, Hom φ (k1 a) (k2 a)) : Hom φ (h1 >>= k1) (h2 >>= k2) := by
  intro s
  show (h2 (s.map φ)).bind (fun p => k2 p.1 p.2) = ((h1 s).bind fun p => k1 p.1 p.2).map _
  rw [h s]
  cases h1 s with
  | none => rfl
  | some p => exact k p.1 p.2
theorem pure {α : Type} (a : α) : Hom φ (pure a : M S α) (Pure.pure a) := fun _ => rfl
theorem ite {α : Type} (c : Prop) [Decidable c] {a b : M S α} {a' b' : M (List Val) α} (h : Hom φ a a') (k : Hom φ b b') :
    Hom φ (if c then a else b) (if c then a' else b') := by
  split <;> assumption
theorem bind_get {α : Type} {k1 : St S → M S α} {k2 : St (List Val) → M (List Val) α} (k : ∀ a, Hom φ (k1 a) (k2 (a.map φ))) :
    Hom φ (get >>= k1) (get >>= k2) := fun s => k s s
theorem map_offset (s : St S) : (s.map φ).offset = s.offset := rfl
end Hom

theorem ub_hom {φ : S → List Val} {α : Type} : Hom φ (ub : M S α) ub := fun _ => rfl

section
variable {φ : S → List Val} (hl : Lawful φ)
include hl
theorem top_hom : Hom φ (top : M S Val) top := by
  intro s; simp only [top, St.map, hl.top]; cases StackImpl.top (φ s.primary) <;> rfl
theorem drop_hom : Hom φ (drop : M S Unit) drop := by
  intro s; simp only [drop, St.map, ← hl.drop]; cases StackImpl.drop s.primary <;> rfl
theorem push_hom (v : Val) : Hom φ (push v : M S Unit) (push v) := by
  intro s; simp [push, St.map, hl.push]; rfl
theorem peek_hom (i : Nat) : Hom φ (peek i : M S Val) (peek i) := by
  intro s; simp only [peek, St.map, hl.peek]; cases StackImpl.peek i (φ s.primary) <;> rfl
theorem swap_hom (i j : Nat) : Hom φ (swap i j : M S Unit) (swap i j) := by
  intro s; simp only [swap, St.map, ← hl.swap]; cases StackImpl.swap i j s.primary <;> rfl
theorem erase_hom (i : Nat) : Hom φ (erase i : M S Unit) (erase i) := by
  intro s; simp only [erase, St.map, ← hl.erase]; cases StackImpl.erase i s.primary <;> rfl
theorem stackSize_hom : Hom φ (stackSize : M S Nat) stackSize := by
  intro s; simp [stackSize, St.map, hl.size]; rfl
theorem isStackOverflow_hom : Hom φ (isStackOverflow : M S Bool) isStackOverflow := by
  intro s; simp [isStackOverflow, St.map, hl.size]; rfl
end

theorem pushAlternate_hom {φ : S → List Val} (v : Val) : Hom φ (pushAlternate v : M S Unit) (pushAlternate v) := fun _ => rfl
theorem isAlternateEmpty_hom {φ : S → List Val} : Hom φ (isAlternateEmpty : M S Bool) isAlternateEmpty := fun _ => rfl
theorem popAlternate_hom {φ : S → List Val} : Hom φ (popAlternate : M S Val) popAlternate := by
  intro s; unfold popAlternate; simp only [St.map]; cases s.alternate <;> rfl
theorem beginIf_hom {φ : S → List Val} (v : Bool) : Hom φ (beginIf v : M S Unit) (beginIf v) := fun _ => rfl
theorem elseIf_hom {φ : S → List Val} : Hom φ (elseIf : M S Unit) elseIf := by
  intro s; unfold elseIf; simp only [St.map]; cases s.condition <;> rfl
theorem endIf_hom {φ : S → List Val} : Hom φ (endIf : M S Unit) endIf := by
  intro s; unfold endIf; simp only [St.map]; cases s.condition <;> rfl
theorem isBalanced_hom {φ : S → List Val} : Hom φ (isBalanced : M S Bool) isBalanced := fun _ => rfl
theorem isSuccess_hom {φ : S → List Val} : Hom φ (isSuccess : M S Bool) isSuccess := fun _ => rfl
theorem sigopsIncrement_hom {φ : S → List Val} : Hom φ (sigopsIncrement : M S Bool) sigopsIncrement := fun _ => rfl
theorem opsIncrementOp_hom {φ : S → List Val} (e : Env) (o : Op) : Hom φ (opsIncrementOp e o : M S Bool) (opsIncrementOp e o) := by
  intro s; unfold opsIncrementOp; cases e.flags.bip342 <;> rfl
theorem opsIncrementKeys_hom {φ : S → List Val} (e : Env) (o : Nat) : Hom φ (opsIncrementKeys e o : M S Bool) (opsIncrementKeys e o) := by
  intro s; unfold opsIncrementKeys; cases e.flags.bip342 <;> rfl
theorem ecdsaSplit_hom {φ : S → List Val} (b : Bytes) : Hom φ (ecdsaSplit b : M S _) (ecdsaSplit b) := by
  unfold ecdsaSplit; exact Hom.ite _ ub_hom (Hom.pure _)
theorem subscript_hom {φ : S → List Val} (e : Env) (b : List Bytes) : Hom φ (subscript e b : M S _) (subscript e b) := by
  intro s; unfold subscript
  show (if _ then _ else if (!isIntersecting (e.ops.drop s.offset) _) = true then some (e.ops.drop s.offset, _) else _) = _
  cases e.flags.bip143 && e.segwit
  · dsimp only; cases isIntersecting (e.ops.drop s.offset) (stripOps b) <;> rfl
  · rfl
theorem setSubscript_hom {φ : S → List Val} (i : Nat) : Hom φ (setSubscript i : M S _) (setSubscript i) := fun _ => rfl
theorem cached_hom {φ : S → List Val} (i : UInt8) : Hom φ (cached i : M S _) (cached i) := fun _ => rfl
theorem uncache_hom {φ : S → List Val} : Hom φ (uncache : M S _) uncache := fun _ => rfl
theorem setHash_hom {φ : S → List Val} (e : Env) (b : List Op) (f : UInt8) : Hom φ (setHash e b f : M S _) (setHash e b f) := fun _ => rfl
theorem setHashTap_hom {φ : S → List Val} (e : Env) (f : UInt8) : Hom φ (setHashTap e f : M S _) (setHashTap e f) := by
  intro s; unfold setHashTap; simp only [St.map]; cases e.sighashTap s.offset f <;> rfl
theorem cachedHash_hom {φ : S → List Val} : Hom φ (cachedHash : M S _) cachedHash := by
  intro s; unfold cachedHash
  show (if s.cache.set = true then some (s.cache.hash, _) else _) = _
  cases h : s.cache.set <;> simp

attribute [local irreducible] Hom

/-- Closes container homomorphism goals by structure. -/
macro "hom" hl:term : tactic => `(tactic| repeat' (first
  | with_reducible exact top_hom $hl | with_reducible exact drop_hom $hl | with_reducible exact push_hom $hl _ | with_reducible exact peek_hom $hl _ | with_reducible exact swap_hom $hl _ _
  | with_reducible exact erase_hom $hl _ | with_reducible exact stackSize_hom $hl | with_reducible exact isStackOverflow_hom $hl
  | with_reducible exact pushAlternate_hom _ | with_reducible exact isAlternateEmpty_hom | with_reducible exact popAlternate_hom | with_reducible exact beginIf_hom _ | with_reducible exact elseIf_hom
  | with_reducible exact endIf_hom | with_reducible exact isBalanced_hom | with_reducible exact isSuccess_hom | with_reducible exact sigopsIncrement_hom | with_reducible exact opsIncrementOp_hom _ _
  | with_reducible exact opsIncrementKeys_hom _ _ | with_reducible exact ecdsaSplit_hom _ | with_reducible exact subscript_hom _ _ | with_reducible exact setSubscript_hom _
  | with_reducible exact cached_hom _ | with_reducible exact uncache_hom | with_reducible exact setHash_hom _ _ _ | with_reducible exact setHashTap_hom _ _ | with_reducible exact cachedHash_hom
  | with_reducible exact Hom.pure _ | with_reducible assumption | with_reducible apply_assumption
  | with_reducible apply Hom.ite | (with_reducible apply Hom.bind_get; intro _; rw [Hom.map_offset]) | with_reducible apply Hom.bind | intro _ | split))

section
variable {φ : S → List Val} (hl : Lawful φ)
include hl
theorem isStackEmpty_hom : Hom φ (isStackEmpty : M S Bool) isStackEmpty := by unfold isStackEmpty; hom hl
theorem pop_hom : Hom φ (pop : M S Val) pop := by unfold pop; hom hl
theorem peekBool_hom : Hom φ (peekBool : M S Bool) peekBool := by unfold peekBool; hom hl
theorem popBool_hom (m : Bool) : Hom φ (popBool m : M S _) (popBool m) := by unfold popBool; hom hl
theorem popStrictBool_hom : Hom φ (popStrictBool : M S _) popStrictBool := by unfold popStrictBool; hom hl
theorem popChunk_hom : Hom φ (popChunk : M S _) popChunk := by unfold popChunk; hom hl
theorem popChunksLoop_hom : ∀ n, Hom φ (popChunksLoop n : M S _) (popChunksLoop n)
  | 0 => Hom.pure _
  | n + 1 => (popChunk_hom hl).bind fun _ => (popChunksLoop_hom n).bind fun _ => Hom.pure _
theorem popChunks_hom (n : Nat) : Hom φ (popChunks n : M S _) (popChunks n) := by
  have := popChunksLoop_hom hl n
  unfold popChunks; hom hl
theorem popSigned32__hom : Hom φ (popSigned32_ : M S _) popSigned32_ := by unfold popSigned32_; hom hl
theorem popSigned32_hom : Hom φ (popSigned32 : M S _) popSigned32 := by
  have := isStackEmpty_hom hl
  have := popSigned32__hom hl
  unfold popSigned32; hom hl
theorem popBinary32_hom : Hom φ (popBinary32 : M S _) popBinary32 := by
  have := popSigned32__hom hl
  unfold popBinary32; hom hl
theorem popTernary32_hom : Hom φ (popTernary32 : M S _) popTernary32 := by
  have := popSigned32__hom hl
  unfold popTernary32; hom hl
theorem popIndex32_hom : Hom φ (popIndex32 : M S _) popIndex32 := by
  have := popSigned32_hom hl
  unfold popIndex32; hom hl
theorem peekUnsigned40_hom : Hom φ (peekUnsigned40 : M S _) peekUnsigned40 := by
  have := isStackEmpty_hom hl
  unfold peekUnsigned40; hom hl
theorem peekUnsigned32_hom : Hom φ (peekUnsigned32 : M S _) peekUnsigned32 := by
  have := peekUnsigned40_hom hl
  unfold peekUnsigned32; hom hl
theorem opNops_hom (e : Env) (c : UInt8) : Hom φ (opNops e c : M S _) (opNops e c) := by
  unfold opNops; hom hl
theorem opCats_hom (e : Env) (c : UInt8) : Hom φ (opCats e c : M S _) (opCats e c) := by
  unfold opCats; hom hl
theorem opNop_hom : Hom φ (opNop : M S _) opNop := by
  unfold opNop; hom hl
theorem opPushNumber_hom (v : Int) : Hom φ (opPushNumber v : M S _) (opPushNumber v) := by
  unfold opPushNumber; hom hl
theorem opPushSize_hom (err : Err) (op : Op) : Hom φ (opPushSize err op : M S _) (opPushSize err op) := by
  unfold opPushSize; hom hl
theorem opIf_hom (e : Env) : Hom φ (opIf e : M S _) (opIf e) := by
  have h0 := isStackEmpty_hom hl
  have h1 := popBool_hom hl e.flags.bip342
  unfold opIf; hom hl
theorem opNotif_hom (e : Env) : Hom φ (opNotif e : M S _) (opNotif e) := by
  have h0 := isStackEmpty_hom hl
  have h1 := popBool_hom hl e.flags.bip342
  unfold opNotif; hom hl
theorem opElse_hom : Hom φ (opElse : M S _) opElse := by
  unfold opElse; hom hl
theorem opEndif_hom : Hom φ (opEndif : M S _) opEndif := by
  unfold opEndif; hom hl
theorem opVerify_hom : Hom φ (opVerify : M S _) opVerify := by
  have h0 := isStackEmpty_hom hl
  have h1 := peekBool_hom hl
  unfold opVerify; hom hl
theorem opToAltStack_hom : Hom φ (opToAltStack : M S _) opToAltStack := by
  have h0 := isStackEmpty_hom hl
  have h1 := pop_hom hl
  unfold opToAltStack; hom hl
theorem opFromAltStack_hom : Hom φ (opFromAltStack : M S _) opFromAltStack := by
  unfold opFromAltStack; hom hl
theorem opDrop2_hom : Hom φ (opDrop2 : M S _) opDrop2 := by
  unfold opDrop2; hom hl
theorem opDup2_hom : Hom φ (opDup2 : M S _) opDup2 := by
  unfold opDup2; hom hl
theorem opDup3_hom : Hom φ (opDup3 : M S _) opDup3 := by
  unfold opDup3; hom hl
theorem opOver2_hom : Hom φ (opOver2 : M S _) opOver2 := by
  unfold opOver2; hom hl
theorem opRot2_hom : Hom φ (opRot2 : M S _) opRot2 := by
  unfold opRot2; hom hl
theorem opSwap2_hom : Hom φ (opSwap2 : M S _) opSwap2 := by
  unfold opSwap2; hom hl
theorem opDepth_hom : Hom φ (opDepth : M S _) opDepth := by
  unfold opDepth; hom hl
theorem opNip_hom : Hom φ (opNip : M S _) opNip := by
  unfold opNip; hom hl
theorem opOver_hom : Hom φ (opOver : M S _) opOver := by
  unfold opOver; hom hl
theorem opRot_hom : Hom φ (opRot : M S _) opRot := by
  unfold opRot; hom hl
theorem opSwap_hom : Hom φ (opSwap : M S _) opSwap := by
  unfold opSwap; hom hl
theorem opTuck_hom : Hom φ (opTuck : M S _) opTuck := by
  unfold opTuck; hom hl
theorem opDrop_hom : Hom φ (opDrop : M S _) opDrop := by
  have h0 := isStackEmpty_hom hl
  unfold opDrop; hom hl
theorem opDup_hom : Hom φ (opDup : M S _) opDup := by
  have h0 := isStackEmpty_hom hl
  unfold opDup; hom hl
theorem opSize_hom : Hom φ (opSize : M S _) opSize := by
  have h0 := isStackEmpty_hom hl
  unfold opSize; hom hl
theorem opIfDup_hom : Hom φ (opIfDup : M S _) opIfDup := by
  have h0 := isStackEmpty_hom hl
  have h1 := peekBool_hom hl
  unfold opIfDup; hom hl
theorem opPick_hom : Hom φ (opPick : M S _) opPick := by
  have h0 := popIndex32_hom hl
  unfold opPick; hom hl
theorem opRoll_hom : Hom φ (opRoll : M S _) opRoll := by
  have h0 := popIndex32_hom hl
  unfold opRoll; hom hl
theorem opEqual_hom : Hom φ (opEqual : M S _) opEqual := by
  have h0 := pop_hom hl
  unfold opEqual; hom hl
theorem opEqualVerify_hom : Hom φ (opEqualVerify : M S _) opEqualVerify := by
  have h0 := pop_hom hl
  unfold opEqualVerify; hom hl
theorem opUnary_hom (err : Err) (f : Int → Val) : Hom φ (opUnary err f : M S _) (opUnary err f) := by
  have h0 := popSigned32_hom hl
  unfold opUnary; hom hl
theorem opBinary_hom (err : Err) (f : Int → Int → Val) : Hom φ (opBinary err f : M S _) (opBinary err f) := by
  have h0 := popBinary32_hom hl
  unfold opBinary; hom hl
theorem opNumEqualVerify_hom : Hom φ (opNumEqualVerify : M S _) opNumEqualVerify := by
  have h0 := popBinary32_hom hl
  unfold opNumEqualVerify; hom hl
theorem opWithin_hom : Hom φ (opWithin : M S _) opWithin := by
  have h0 := popTernary32_hom hl
  unfold opWithin; hom hl
theorem opHash_hom (err : Err) (f : Bytes → Bytes) : Hom φ (opHash err f : M S _) (opHash err f) := by
  have h0 := isStackEmpty_hom hl
  have h1 := popChunk_hom hl
  unfold opHash; hom hl
theorem opCodeseparator_hom (i : Nat) : Hom φ (opCodeseparator i : M S _) (opCodeseparator i) := by
  unfold opCodeseparator; hom hl
theorem checkSigSchnorr_hom (e : Env) (k g : Bytes) : Hom φ (checkSigSchnorr e k g : M S _) (checkSigSchnorr e k g) := by
  unfold checkSigSchnorr; hom hl
theorem opCheckSigVerify_hom (e : Env) : Hom φ (opCheckSigVerify e : M S _) (opCheckSigVerify e) := by
  have h0 := popChunk_hom hl
  have h1 := checkSigSchnorr_hom hl e
  unfold opCheckSigVerify; hom hl
theorem opCheckSig_hom (e : Env) : Hom φ (opCheckSig e : M S _) (opCheckSig e) := by
  have h0 := opCheckSigVerify_hom hl e
  unfold opCheckSig; hom hl
theorem multisigLoop_hom (e : Env) (sub : List Op) : ∀ k g, Hom φ (multisigLoop e sub k g : M S _) (multisigLoop e sub k g)
  | [], _ => Hom.pure _
  | _ :: _, [] => Hom.pure _
  | key :: keys, g :: rest => by
    have h1 := multisigLoop_hom e sub keys rest
    have h2 := multisigLoop_hom e sub keys (g :: rest)
    unfold multisigLoop; hom hl
theorem opCheckMultisigVerify_hom (e : Env) : Hom φ (opCheckMultisigVerify e : M S _) (opCheckMultisigVerify e) := by
  have h0 := popIndex32_hom hl
  have h1 := popChunks_hom hl
  have h2 := isStackEmpty_hom hl
  have h3 := popStrictBool_hom hl
  have h4 := multisigLoop_hom hl e
  unfold opCheckMultisigVerify; hom hl
theorem opCheckMultisig_hom (e : Env) : Hom φ (opCheckMultisig e : M S _) (opCheckMultisig e) := by
  have h0 := opCheckMultisigVerify_hom hl e
  unfold opCheckMultisig; hom hl
theorem opCheckLocktimeVerify_hom (e : Env) : Hom φ (opCheckLocktimeVerify e : M S _) (opCheckLocktimeVerify e) := by
  have h0 := peekUnsigned40_hom hl
  unfold opCheckLocktimeVerify; hom hl
theorem opCheckSequenceVerify_hom (e : Env) : Hom φ (opCheckSequenceVerify e : M S _) (opCheckSequenceVerify e) := by
  have h0 := peekUnsigned32_hom hl
  unfold opCheckSequenceVerify; hom hl
theorem checkSigAddSchnorr_hom (e : Env) (k g : Bytes) : Hom φ (checkSigAddSchnorr e k g : M S _) (checkSigAddSchnorr e k g) := by
  unfold checkSigAddSchnorr; hom hl
theorem opCheckSigAdd_hom (e : Env) : Hom φ (opCheckSigAdd e : M S _) (opCheckSigAdd e) := by
  have h0 := popChunk_hom hl
  have h1 := popSigned32__hom hl
  have h2 := checkSigAddSchnorr_hom hl e
  unfold opCheckSigAdd; hom hl
theorem runOp_hom (e : Env) (i : Nat) (op : Op) : Hom φ (runOp e i op : M S _) (runOp e i op) := by
  unfold runOp
  split <;> first | with_reducible exact opNops_hom hl _ _ | with_reducible exact opCats_hom hl _ _ | with_reducible exact opNop_hom hl | with_reducible exact opPushNumber_hom hl _ | with_reducible exact opPushSize_hom hl _ _ | with_reducible exact opIf_hom hl _ | with_reducible exact opNotif_hom hl _ | with_reducible exact opElse_hom hl | with_reducible exact opEndif_hom hl | with_reducible exact opVerify_hom hl | with_reducible exact opToAltStack_hom hl | with_reducible exact opFromAltStack_hom hl | with_reducible exact opDrop2_hom hl | with_reducible exact opDup2_hom hl | with_reducible exact opDup3_hom hl | with_reducible exact opOver2_hom hl | with_reducible exact opRot2_hom hl | with_reducible exact opSwap2_hom hl | with_reducible exact opDepth_hom hl | with_reducible exact opNip_hom hl | with_reducible exact opOver_hom hl | with_reducible exact opRot_hom hl | with_reducible exact opSwap_hom hl | with_reducible exact opTuck_hom hl | with_reducible exact opDrop_hom hl | with_reducible exact opDup_hom hl | with_reducible exact opSize_hom hl | with_reducible exact opIfDup_hom hl | with_reducible exact opPick_hom hl | with_reducible exact opRoll_hom hl | with_reducible exact opEqual_hom hl | with_reducible exact opEqualVerify_hom hl | with_reducible exact opUnary_hom hl _ _ | with_reducible exact opBinary_hom hl _ _ | with_reducible exact opNumEqualVerify_hom hl | with_reducible exact opWithin_hom hl | with_reducible exact opHash_hom hl _ _ | with_reducible exact opCodeseparator_hom hl _ | with_reducible exact opCheckSig_hom hl _ | with_reducible exact opCheckSigVerify_hom hl _ | with_reducible exact opCheckMultisig_hom hl _ | with_reducible exact opCheckMultisigVerify_hom hl _ | with_reducible exact opCheckLocktimeVerify_hom hl _ | with_reducible exact opCheckSequenceVerify_hom hl _ | with_reducible exact opCheckSigAdd_hom hl _ | with_reducible exact Hom.pure _ | skip
  repeat' first | with_reducible exact opNops_hom hl _ _ | with_reducible exact opCats_hom hl _ _ | with_reducible exact opNop_hom hl | with_reducible exact opPushNumber_hom hl _ | with_reducible exact opPushSize_hom hl _ _ | with_reducible exact opIf_hom hl _ | with_reducible exact opNotif_hom hl _ | with_reducible exact opElse_hom hl | with_reducible exact opEndif_hom hl | with_reducible exact opVerify_hom hl | with_reducible exact opToAltStack_hom hl | with_reducible exact opFromAltStack_hom hl | with_reducible exact opDrop2_hom hl | with_reducible exact opDup2_hom hl | with_reducible exact opDup3_hom hl | with_reducible exact opOver2_hom hl | with_reducible exact opRot2_hom hl | with_reducible exact opSwap2_hom hl | with_reducible exact opDepth_hom hl | with_reducible exact opNip_hom hl | with_reducible exact opOver_hom hl | with_reducible exact opRot_hom hl | with_reducible exact opSwap_hom hl | with_reducible exact opTuck_hom hl | with_reducible exact opDrop_hom hl | with_reducible exact opDup_hom hl | with_reducible exact opSize_hom hl | with_reducible exact opIfDup_hom hl | with_reducible exact opPick_hom hl | with_reducible exact opRoll_hom hl | with_reducible exact opEqual_hom hl | with_reducible exact opEqualVerify_hom hl | with_reducible exact opUnary_hom hl _ _ | with_reducible exact opBinary_hom hl _ _ | with_reducible exact opNumEqualVerify_hom hl | with_reducible exact opWithin_hom hl | with_reducible exact opHash_hom hl _ _ | with_reducible exact opCodeseparator_hom hl _ | with_reducible exact opCheckSig_hom hl _ | with_reducible exact opCheckSigVerify_hom hl _ | with_reducible exact opCheckMultisig_hom hl _ | with_reducible exact opCheckMultisigVerify_hom hl _ | with_reducible exact opCheckLocktimeVerify_hom hl _ | with_reducible exact opCheckSequenceVerify_hom hl _ | with_reducible exact opCheckSigAdd_hom hl _ | with_reducible exact Hom.pure _ | with_reducible apply Hom.ite
theorem runStep_hom (e : Env) (i : Nat) (op : Op) : Hom φ (runStep e i op : M S _) (runStep e i op) := by
  have h := runOp_hom hl e i op
  unfold runStep; hom hl
theorem runLoop_hom (e : Env) : ∀ i ops, Hom φ (runLoop e i ops : M S _) (runLoop e i ops)
  | _, [] => Hom.pure _
  | i, op :: ops => by
    have h := runStep_hom hl e i op
    have h' := runLoop_hom e (i + 1) ops
    unfold runLoop; hom hl
theorem initProgram_hom (e : Env) : Hom φ (initProgram e : M S _) (initProgram e) := by
  unfold initProgram; hom hl
theorem run_hom (e : Env) : Hom φ (run e : M S _) (run e) := by
  have h := initProgram_hom hl e
  have h' := runLoop_hom hl e 0 e.ops
  unfold run; hom hl
theorem isTrue_hom (c : Bool) : Hom φ (isTrue c : M S _) (isTrue c) := by
  have h := peekBool_hom hl
  unfold isTrue; hom hl
end

/-! ### No operation reports prevalid_script -/

/-- The handler never returns the code that means success without execution. -/
def NoPre {S : Type} (h : M S Res) : Prop := ∀ s s', h s ≠ some (some .prevalid_script, s')

theorem NoPre.bind {S α : Type} {h : M S α} {k : α → M S Res} (hk : ∀ a, NoPre (k a)) : NoPre (h >>= k) := by
  intro s s'
  show (h s).bind (fun p => k p.1 p.2) ≠ _
  cases h s with
  | none => intro h; cases h
  | some p => exact hk p.1 p.2 s'
theorem NoPre.pure {S : Type} {r : Res} (hr : r ≠ some .prevalid_script) : NoPre (pure r : M S Res) := by
  intro s s' h
  cases h
  exact hr rfl
theorem NoPre.ite {S : Type} {c : Prop} [Decidable c] {a b : M S Res} (ha : NoPre a) (hb : NoPre b) : NoPre (if c then a else b) := by
  split <;> assumption
theorem NoPre.passed {S : Type} {h : M S Res} {k : Res → M S Res} (hh : NoPre h)
    (hk : ∀ a, a ≠ some .prevalid_script → NoPre (k a)) : NoPre (h >>= k) := by
  intro s s'
  show (h s).bind (fun p => k p.1 p.2) ≠ _
  cases hs : h s with
  | none => intro h; cases h
  | some p => exact hk p.1 (fun hp => hh s p.2 (by rw [hs, ← hp])) p.2 s'

theorem unevaluated_noPre (c : UInt8) : unevaluated c ≠ some .prevalid_script := by
  unfold unevaluated; split <;> simp

attribute [local irreducible] NoPre

macro "nopre" : tactic => `(tactic| repeat' (first
  | with_reducible assumption
  | (with_reducible apply NoPre.pure; first | assumption | exact unevaluated_noPre _ | (split <;> simp) | simp)
  | with_reducible apply NoPre.ite | with_reducible apply NoPre.bind | intro _ | split))

section
variable {S : Type} [StackImpl S]
theorem opNops_noPre (e : Env) (c : UInt8) : NoPre (opNops e c : M S Res) := by
  unfold opNops; split <;> nopre
theorem opCats_noPre (e : Env) (c : UInt8) : NoPre (opCats e c : M S Res) := by
  unfold opCats; split <;> nopre
theorem opUnary_noPre (err : Err) (f : Int → Val) (h : err ≠ .prevalid_script) : NoPre (opUnary err f : M S Res) := by
  have : some err ≠ some Err.prevalid_script := by simpa using h
  unfold opUnary; nopre
theorem opBinary_noPre (err : Err) (f : Int → Int → Val) (h : err ≠ .prevalid_script) : NoPre (opBinary err f : M S Res) := by
  have : some err ≠ some Err.prevalid_script := by simpa using h
  unfold opBinary; nopre
theorem opHash_noPre (err : Err) (f : Bytes → Bytes) (h : err ≠ .prevalid_script) : NoPre (opHash err f : M S Res) := by
  have : some err ≠ some Err.prevalid_script := by simpa using h
  unfold opHash; nopre
theorem opPushSize_noPre (err : Err) (o : Op) (h : err ≠ .prevalid_script) : NoPre (opPushSize err o : M S Res) := by
  have : some err ≠ some Err.prevalid_script := by simpa using h
  unfold opPushSize; nopre
theorem checkSigSchnorr_noPre (e : Env) (k g : Bytes) : NoPre (checkSigSchnorr e k g : M S Res) := by
  unfold checkSigSchnorr; nopre
theorem checkSigAddSchnorr_noPre (e : Env) (k g : Bytes) : NoPre (checkSigAddSchnorr e k g : M S Res) := by
  unfold checkSigAddSchnorr; nopre
theorem opCheckSigVerify_noPre (e : Env) : NoPre (opCheckSigVerify e : M S Res) := by
  have h := fun k g => checkSigSchnorr_noPre (S := S) e k g
  unfold opCheckSigVerify
  repeat' (first
    | (with_reducible apply NoPre.pure; first | assumption | simp)
    | with_reducible apply NoPre.ite | (with_reducible apply NoPre.passed (h _ _); intro _ _)
    | with_reducible apply NoPre.bind | intro _ | split)
theorem opCheckSig_noPre (e : Env) : NoPre (opCheckSig e : M S Res) := by
  unfold opCheckSig
  refine NoPre.passed (opCheckSigVerify_noPre e) fun a ha => ?_
  nopre
theorem opCheckMultisigVerify_noPre (e : Env) : NoPre (opCheckMultisigVerify e : M S Res) := by
  unfold opCheckMultisigVerify; nopre
theorem opCheckMultisig_noPre (e : Env) : NoPre (opCheckMultisig e : M S Res) := by
  unfold opCheckMultisig
  refine NoPre.ite (NoPre.pure (unevaluated_noPre _)) (NoPre.passed (opCheckMultisigVerify_noPre e) fun a ha => ?_)
  nopre
theorem opCheckSigAdd_noPre (e : Env) : NoPre (opCheckSigAdd e : M S Res) := by
  have h := fun k g => checkSigAddSchnorr_noPre (S := S) e k g
  unfold opCheckSigAdd
  repeat' (first
    | (with_reducible apply NoPre.pure; first | assumption | exact unevaluated_noPre _ | simp)
    | with_reducible apply NoPre.ite | (with_reducible apply NoPre.passed (h _ _); intro _ _)
    | with_reducible apply NoPre.bind | intro _ | split)
theorem runOp_noPre (e : Env) (i : Nat) (op : Op) : NoPre (runOp e i op : M S Res) := by
  unfold runOp
  split <;> first
    | exact opNops_noPre _ _ | exact opCats_noPre _ _
    | exact opUnary_noPre _ _ (by decide) | exact opBinary_noPre _ _ (by decide) | exact opHash_noPre _ _ (by decide)
    | exact opPushSize_noPre _ _ (by decide) | exact opCheckSig_noPre _ | exact opCheckSigVerify_noPre _
    | exact opCheckMultisig_noPre _ | exact opCheckMultisigVerify_noPre _ | exact opCheckSigAdd_noPre _
    | exact NoPre.pure (unevaluated_noPre _) | skip
  all_goals first
    | (unfold opPushNumber; nopre; done) | (unfold opNop; nopre; done) | (unfold opIf; nopre; done) | (unfold opNotif; nopre; done)
    | (unfold opElse; nopre; done) | (unfold opEndif; nopre; done) | (unfold opVerify; nopre; done) | (unfold opToAltStack; nopre; done)
    | (unfold opFromAltStack; nopre; done) | (unfold opDrop2; nopre; done) | (unfold opDup2; nopre; done) | (unfold opDup3; nopre; done)
    | (unfold opOver2; nopre; done) | (unfold opRot2; nopre; done) | (unfold opSwap2; nopre; done) | (unfold opIfDup; nopre; done)
    | (unfold opDepth; nopre; done) | (unfold opDrop; nopre; done) | (unfold opDup; nopre; done) | (unfold opNip; nopre; done)
    | (unfold opOver; nopre; done) | (unfold opPick; nopre; done) | (unfold opRoll; nopre; done) | (unfold opRot; nopre; done)
    | (unfold opSwap; nopre; done) | (unfold opTuck; nopre; done) | (unfold opSize; nopre; done) | (unfold opEqual; nopre; done)
    | (unfold opEqualVerify; nopre; done) | (unfold opNumEqualVerify; nopre; done) | (unfold opWithin; nopre; done)
    | (unfold opCodeseparator; nopre; done) | (unfold opCheckLocktimeVerify; nopre; done) | (unfold opCheckSequenceVerify; nopre; done)
    | skip
  refine NoPre.ite (opPushSize_noPre _ _ (by decide)) (NoPre.ite ?_ (NoPre.ite ?_ (NoPre.pure (unevaluated_noPre _))))
  · unfold opPushNumber; nopre
  · unfold opNop; nopre
theorem runStep_noPre (e : Env) (i : Nat) (op : Op) : NoPre (runStep e i op : M S Res) := by
  unfold runStep
  refine NoPre.ite (NoPre.pure (by simp)) (NoPre.bind fun _ => NoPre.ite (NoPre.pure (by simp)) (NoPre.bind fun _ =>
    NoPre.ite (NoPre.passed (runOp_noPre e i op) fun a ha => ?_) (NoPre.pure (by simp))))
  nopre
theorem runLoop_noPre (e : Env) : ∀ i ops, NoPre (runLoop e i ops : M S Res)
  | _, [] => NoPre.pure (by simp)
  | i, op :: ops => by
    have h := runLoop_noPre e (i + 1) ops
    unfold runLoop
    refine NoPre.passed (runStep_noPre e i op) fun a ha => ?_
    nopre
end

/-! ### The two containers -/

/-- The elements of a vector stack, top first. -/
def VecStack.list (s : VecStack) : List Val := s.items.toList.reverse
/-- The elements of a linked stack, top first. -/
def LinkStack.list (s : LinkStack) : List Val := s.items.reverse

theorem reverse_get (l : List Val) (i : Nat) (h : i < l.length) : l.reverse[i]? = l[l.length - 1 - i]? := by
  rw [List.getElem?_reverse h]

theorem reverse_set (l : List Val) (i : Nat) (v : Val) (h : i < l.length) :
    (l.set (l.length - 1 - i) v).reverse = l.reverse.set i v := by
  apply List.ext_getElem?
  intro k
  by_cases hk : k < l.length
  · rw [List.getElem?_reverse (by simpa using hk), List.length_set, List.getElem?_set, List.getElem?_set, List.getElem?_reverse hk]
    by_cases hik : i = k
    · subst hik; simp [h]; omega
    · rw [if_neg (by omega), if_neg hik]
  · rw [List.getElem?_eq_none (by simp; omega), List.getElem?_eq_none (by simp; omega)]

theorem reverse_erase (l : List Val) (i : Nat) (h : i < l.length) :
    (l.eraseIdx (l.length - (i + 1))).reverse = l.reverse.eraseIdx i := by
  rw [List.eraseIdx_eq_take_drop_succ, List.eraseIdx_eq_take_drop_succ, List.reverse_append, List.take_reverse, List.drop_reverse]
  rw [show l.length - (i + 1) + 1 = l.length - i by omega]

theorem vec_lawful : Lawful VecStack.list where
  size s := by simp [StackImpl.size, VecStack.list]
  push v s := by simp [StackImpl.push, VecStack.list]
  top s := by
    simp only [StackImpl.top, VecStack.list, List.head?_reverse]
    rw [← Array.getLast?_toList]
  drop s := by
    obtain ⟨⟨l⟩⟩ := s
    simp only [StackImpl.drop, VecStack.list]
    rcases List.eq_nil_or_concat l with rfl | ⟨l', a, rfl⟩ <;> simp [VecStack.list, LinkStack.list]
  peek i s := by
    obtain ⟨⟨l⟩⟩ := s
    simp only [StackImpl.peek, VecStack.list]
    by_cases h : i < l.length
    · simp [h]
    · simp [h]
  swap i j s := by
    obtain ⟨⟨l⟩⟩ := s
    simp only [StackImpl.swap, VecStack.list]
    by_cases hi : i < l.length
    · by_cases hj : j < l.length
      · simp only [List.size_toArray, hi, hj, and_self, dite_true, Option.map_some, Array.toList_swap,
          List.getElem_toArray]
        rw [List.getElem?_reverse hi, List.getElem?_reverse hj, List.getElem?_eq_getElem (by omega), List.getElem?_eq_getElem (by omega)]
        have := reverse_set (l.set (l.length - 1 - i) (l[l.length - 1 - j])) j (l[l.length - 1 - i]) (by simpa using hj)
        rw [List.length_set] at this
        show some (Array.swap _ _ _ _ _).toList.reverse = some _
        rw [Array.toList_swap]
        show some ((l.set (l.length - 1 - i) (l[l.length - 1 - j])).set (l.length - 1 - j) (l[l.length - 1 - i])).reverse = _
        rw [this, reverse_set _ _ _ hi]
      · simp [hj]
    · simp [hi]
  erase i s := by
    obtain ⟨⟨l⟩⟩ := s
    simp only [StackImpl.erase, VecStack.list]
    by_cases h : i < l.length
    · simp only [List.size_toArray, h, if_true, Option.map_some, List.length_reverse]
      show some (l.eraseIdx _).reverse = _
      rw [reverse_erase l i h]
    · simp [h]

theorem stepBack_eq : ∀ p n, stepBack p n = if n ≤ p then some (p - n) else none
  | p, 0 => by cases p <;> simp [stepBack]
  | 0, n + 1 => by simp [stepBack]
  | p + 1, n + 1 => by rw [stepBack, stepBack_eq p n]; simp

theorem link_lawful : Lawful LinkStack.list where
  size s := by simp [StackImpl.size, LinkStack.list]
  push v s := by simp [StackImpl.push, LinkStack.list]
  top s := by simp only [StackImpl.top, LinkStack.list, List.head?_reverse]
  drop s := by
    obtain ⟨l⟩ := s
    simp only [StackImpl.drop, LinkStack.list]
    rcases List.eq_nil_or_concat l with rfl | ⟨l', a, rfl⟩ <;> simp [VecStack.list, LinkStack.list]
  peek i s := by
    obtain ⟨l⟩ := s
    simp only [StackImpl.peek, LinkStack.list, stepBack_eq]
    by_cases h : i < l.length
    · simp [show i + 1 ≤ l.length by omega, reverse_get _ _ h, show l.length - (i + 1) = l.length - 1 - i by omega]
    · simp [show ¬ i + 1 ≤ l.length by omega]; omega
  swap i j s := by
    obtain ⟨l⟩ := s
    simp only [StackImpl.swap, LinkStack.list, stepBack_eq]
    by_cases hi : i < l.length
    · by_cases hj : j < l.length
      · rw [List.getElem?_reverse hi, List.getElem?_reverse hj]
        rw [if_pos (by omega), if_pos (by omega)]
        rw [show l.length - (i + 1) = l.length - 1 - i by omega, show l.length - (j + 1) = l.length - 1 - j by omega]
        simp only [Option.bind_eq_bind, Option.bind_some]
        rw [List.getElem?_eq_getElem (by omega), List.getElem?_eq_getElem (by omega)]
        have := reverse_set (l.set (l.length - 1 - i) (l[l.length - 1 - j])) j (l[l.length - 1 - i]) (by simpa using hj)
        rw [List.length_set] at this
        show some (((l.set (l.length - 1 - i) (l[l.length - 1 - j])).set (l.length - 1 - j) (l[l.length - 1 - i])).reverse) = _
        rw [this, reverse_set _ _ _ hi]
      · rw [if_pos (by omega), if_neg (by omega)]
        rw [List.getElem?_eq_none (l := l.reverse) (i := j) (by simp; omega)]
        cases l.reverse[i]? <;> rfl
    · rw [if_neg (by omega)]
      rw [List.getElem?_eq_none (l := l.reverse) (i := i) (by simp; omega)]
      rfl
  erase i s := by
    obtain ⟨l⟩ := s
    simp only [StackImpl.erase, LinkStack.list, stepBack_eq]
    by_cases h : i < l.length
    · rw [if_pos (by omega)]
      have h' : i < l.reverse.length := by simpa using h
      rw [← reverse_erase l i h]
      exact (if_pos h').symm
    · simp [show ¬ i + 1 ≤ l.length by omega]; omega

end Verif.Machine
