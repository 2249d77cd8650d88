import Verif.Model.Connect
import Verif.Spec.Chain
import Verif.Spec.Script
/-!
# Specification: output templates, signature operation cost, and input verification

Written from the BIPs (16, 141, 341, 342) over script *bytes* and the reference interpreter `eval`; it uses from the model
only the data types, the parser `parseOps` (characterised by C04-C06) and `Spend`/`Env` as bundles of parameters.
-/
namespace Verif.Spec

/-- BIP16: `HASH160 <20 bytes> EQUAL`, byte for byte. -/
def IsP2SH (b : Bytes) : Prop := ∃ h : Bytes, h.length = 20 ∧ b = [0xa9, 0x14] ++ h ++ [0x87]

/-- BIP141: a version byte (OP_0, OP_1..OP_16) and one direct push of 2 to 40 bytes making up the rest of the script. -/
def IsWitnessProgram (b : Bytes) (version : Nat) (program : Bytes) : Prop :=
  2 ≤ program.length ∧ program.length ≤ 40 ∧
  ∃ v : UInt8, b = v :: UInt8.ofNat program.length :: program ∧
    (v = 0 ∧ version = 0 ∨ 1 ≤ version ∧ version ≤ 16 ∧ v.toNat = 80 + version)

/-! ## Signature operations -/

/-- What one operation counts for, given the opcode before it. -/
def sigopWeight (accurate : Bool) (prev : Option UInt8) (code : UInt8) : Nat :=
  if code = 172 ∨ code = 173 then 1
  else if code = 174 ∨ code = 175 then
    match prev with
    | some p => if accurate = true ∧ 81 ≤ p.toNat ∧ p.toNat ≤ 96 then p.toNat - 80 else 20
    | none => 20
  else 0

/-- The count of a script: the sum over its operations, each seen with its predecessor. -/
def sigops (accurate : Bool) (ops : List Op) : Nat :=
  ((ops.zip (none :: ops.map fun o => some o.code)).map fun p => sigopWeight accurate p.2 p.1.code).sum

/-- The redeem script of a BIP16 spend: the data of the last operation of a push-only input script. -/
def redeem (i : SpendIn) : Option Bytes :=
  if i.ops.all (fun o => decide (o.code.toNat ≤ 96)) then i.ops.getLast?.map Op.data else none

open Classical in
/-- Operations counted at the legacy rate because of BIP16. -/
noncomputable def p2shCount (i : SpendIn) : Nat :=
  match i.prevout, redeem i with
  | some prev, some r => if IsP2SH (opsData prev) then sigops true (parseOps r) else 0
  | _, _ => 0

open Classical in
/-- BIP141: the operations of a witness program; only version 0 counts. -/
noncomputable def programCount (script : Bytes) (witness : List Bytes) : Nat :=
  if ∃ p, IsWitnessProgram script 0 p ∧ p.length = 20 then 1
  else if ∃ p, IsWitnessProgram script 0 p ∧ p.length = 32 then
    match witness.getLast? with
    | some s => sigops true (parseOps s)
    | none => 0
  else 0

open Classical in
/-- BIP141: operations counted at the witness rate, for a native or a BIP16 nested witness program. -/
noncomputable def witnessCount (i : SpendIn) : Nat :=
  match i.prevout with
  | none => 0
  | some prev =>
    if ∃ v p, IsWitnessProgram (opsData prev) v p then programCount (opsData prev) i.witness
    else if IsP2SH (opsData prev) then
      match redeem i with
      | some r => programCount r i.witness
      | none => 0
    else 0

/-- The cost of a transaction: BIP141 scales legacy and BIP16 operations by four. -/
noncomputable def txCost (bip16 bip141 : Bool) (inputs : List SpendIn) (outputs : List (List Op)) : Nat :=
  let legacy := (inputs.map fun i => sigops false i.ops).sum + (outputs.map fun o => sigops false o).sum
  let p2sh := if bip16 then (inputs.map p2shCount).sum else 0
  if bip141 then 4 * (legacy + p2sh) + (inputs.map witnessCount).sum else legacy + p2sh

noncomputable def blockCost (bip16 bip141 : Bool) (txs : List (List SpendIn × List (List Op))) : Nat :=
  (txs.map fun t => txCost bip16 bip141 t.1 t.2).sum

/-! ## Input verification -/
open Script (eval start State truthy)

/-- The top element is true. -/
def accepts : List Bytes → Bool
  | [] => false
  | a :: _ => truthy a
/-- Exactly one element, and it is true. -/
def acceptsClean : List Bytes → Bool
  | [a] => truthy a
  | _ => false

/-- 32-byte pieces of the control block's Merkle path. -/
def path : Nat → Bytes → List Bytes
  | 0, _ => []
  | n + 1, b => b.take 32 :: path n (b.drop 32)

/-- BIP341: fold the siblings into the leaf, hashing each pair in lexicographic order. -/
def tapRoot (s : Spend) (leaf : Bytes) (siblings : List Bytes) : Bytes :=
  siblings.foldl (fun h k => if h < k then s.branchHash h k else s.branchHash k h) leaf

/-- BIP341: drop the annex. -/
def withoutAnnex (w : List Bytes) : List Bytes :=
  match w.reverse with
  | a :: b :: rest => if a.head? = some 0x50 then (b :: rest).reverse else w
  | _ => w

/-- The reference outcome of a version 0 program. -/
def segwit (s : Spend) (p : Bytes) : Bool :=
  let exec (ops : List Op) (stack : List Bytes) : Bool :=
    match eval (s.segwitEnv ops stack) (start stack.reverse 0) with
    | .done t => acceptsClean t.stack
    | _ => false
  if p.length = 20 then
    decide (s.witness.length = 2) &&
      exec (parseOps ([0x76, 0xa9, 0x14] ++ p ++ [0x88, 0xac])) s.witness
  else if p.length = 32 then
    match s.witness.reverse with
    | [] => false
    | script :: rest => decide (s.sha256 script = p) && exec (parseOps script) rest.reverse
  else false

/-- BIP341 key path: a valid Schnorr signature for the output key, of 64 bytes (default hash type) or 65 bytes ending in a
defined hash type. -/
def keyPath (s : Spend) (p sig : Bytes) : Bool :=
  let check (sg : Bytes) (hashType : UInt8) : Bool :=
    match s.sighashTap none 0 hashType with
    | some h => s.verifySchnorr p h sg
    | none => false
  if sig.length = 64 then check sig 0
  else if sig.length = 65 ∧ sig.getLastD 0 ∈ ([1, 2, 3, 0x81, 0x82, 0x83] : List UInt8) then check (sig.take 64) (sig.getLastD 0)
  else false

/-- The reference outcome of a version 1 program (BIP341, BIP342) that is not nested. -/
def taproot (s : Spend) (p : Bytes) : Bool :=
  if p.length = 32 then
    match (withoutAnnex s.witness).reverse with
    | [] => false
    | [sig] => keyPath s p sig
    | control :: script :: rest =>
      decide (33 ≤ control.length) && decide (control.length ≤ 33 + 32 * 128) && decide ((control.length - 33) % 32 = 0) &&
      let version := control.headD 0 &&& 0xfe
      let leaf := s.leafHash version (writeVariable script.length ++ script)
      let key := (control.drop 1).take 32
      let root := tapRoot s leaf (path ((control.length - 33) / 32) (control.drop 33))
      s.verifyCommitment key (s.tweakHash key root) p (control.headD 0 &&& 1 != 0) &&
      (if version = 0xc0 then
        match eval (s.taprootEnv (parseOps script) rest.reverse (some leaf))
            (start rest (50 + ((writeVariable s.witness.length).length + (s.witness.map fun e => (writeVariable e.length).length + e.length).sum))) with
        | .done t => acceptsClean t.stack
        | .reserved => true
        | .fail => false
      else true)
  else true

/-- The reference outcome of a witness program. -/
def program (s : Spend) (version : Nat) (p : Bytes) (nested : Bool) : Bool :=
  if version = 0 then segwit s p
  else if version = 1 ∧ s.flags.bip341 = true ∧ nested = false then taproot s p
  else true

/-- Version and program of a script that is a witness program. -/
def program? (b : Bytes) : Option (Nat × Bytes) :=
  match b with
  | v :: n :: p =>
    if n.toNat = p.length ∧ 2 ≤ p.length ∧ p.length ≤ 40 then
      if v = 0 then some (0, p) else if 81 ≤ v.toNat ∧ v.toNat ≤ 96 then some (v.toNat - 80, p) else none
    else none
  | _ => none

instance (b : Bytes) : Decidable (IsP2SH b) :=
  decidable_of_iff (b.length = 23 ∧ b = [0xa9, 0x14] ++ (b.drop 2).take 20 ++ [0x87]) ⟨
    fun ⟨h1, h2⟩ => ⟨(b.drop 2).take 20, by simp [h1], h2⟩,
    by rintro ⟨h, h1, rfl⟩; simp [h1]⟩

/-- The reference verification of an input against its previous output (BIP16, BIP141, BIP341). -/
def verify (s : Spend) : Bool :=
  match eval (s.legacyEnv s.ops) (start [] 0) with
  | .done t1 => match eval (s.legacyEnv s.prevout) (start t1.stack 0) with
    | .done t2 => accepts t2.stack &&
      if s.flags.bip16 = true ∧ IsP2SH (opsData s.prevout) then
        s.ops.all (fun o => decide (o.code.toNat ≤ 96)) &&
        match t1.stack with
        | [] => false
        | serialized :: rest => match eval (s.legacyEnv (parseOps serialized)) (start rest 0) with
          | .done t3 => accepts t3.stack &&
            (match (if s.flags.bip141 then program? serialized else none) with
            | some (v, p) => decide (opsData s.ops = Script.pushBytes serialized) && program s v p true
            | none => s.witness.isEmpty)
          | _ => false
      else match (if s.flags.bip141 then program? (opsData s.prevout) else none) with
        | some (v, p) => decide (opsData s.ops = []) && program s v p false
        | none => s.witness.isEmpty
    | _ => false
  | _ => false

/-- CHECKMULTISIG occurs at most as the last operation (CHECKMULTISIGVERIFY anywhere). -/
def LastMultisig (ops : List Op) : Prop := ∀ o ∈ ops.dropLast, o.code ≠ 174
/-- CHECKMULTISIG does not occur. -/
def NoMultisig (ops : List Op) : Prop := ∀ o ∈ ops, o.code ≠ 174

/-- The redeem script of a BIP16 spend. -/
def Redeems (s : Spend) (r : Bytes) : Prop :=
  s.flags.bip16 = true ∧ IsP2SH (opsData s.prevout) ∧
    ∃ t, eval (s.legacyEnv s.ops) (start [] 0) = .done t ∧ t.stack.head? = some r

/-- CHECKMULTISIG occurs in no input script, and in the scripts it can occur in - previous output, redeem script, witness
script - only at the end, as in every standard script. -/
structure _root_.Verif.Spend.Ordinary (s : Spend) : Prop where
  input : NoMultisig s.ops
  prevout : LastMultisig s.prevout
  redeem : ∀ r, Redeems s r → LastMultisig (parseOps r)
  witness : ∀ script p w, script = opsData s.prevout ∨ Redeems s script → IsWitnessProgram script 0 p → p.length = 32 →
    s.witness.getLast? = some w → LastMultisig (parseOps w)

end Verif.Spec
