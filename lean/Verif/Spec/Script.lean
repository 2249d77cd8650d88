import Verif.Spec.Number
import Verif.Model.Machine
/-!
# Specification of script evaluation

A reference interpreter in which every stack element is a byte string, written from the consensus rules (the
`EvalScript` rules of the reference client with BIP16/65/66/112/141/143/147/341/342), not from the code in /repo. It shares
with the model only the vocabulary: `Op`, `Flags` and `Env` (transaction fields and uninterpreted cryptography).
`none` is failure: no error codes.
-/
namespace Verif.Spec.Script
open Verif.Machine (Env Flags)

/-- Evaluation state. Lists have the top (innermost) element first. -/
structure State where
  stack : List Bytes
  alt : List Bytes := []
  exec : List Bool := []
  nops : Nat := 0
  /-- index of the operation after the last executed OP_CODESEPARATOR -/
  sep : Nat := 0
  /-- BIP342 signature operation budget -/
  budget : Int := 0
deriving DecidableEq

/-- Little-endian magnitude bytes, without leading (most significant) zeros. -/
def magnitude (n : Nat) : Bytes := if h : n = 0 then [] else UInt8.ofNat (n % 256) :: magnitude (n / 256)
termination_by n

/-- Minimal encoding of a number: a separate sign byte only if the top magnitude bit is taken. -/
def encodeNum (v : Int) : Bytes :=
  if v = 0 then []
  else
    let m := magnitude v.natAbs
    let top := m.getLastD 0
    if 0x80 ≤ top then m ++ [if v < 0 then 0x80 else 0]
    else if v < 0 then m.dropLast ++ [top + 0x80]
    else m

/-- A stack element read as a number of at most `limit` bytes. -/
def num (limit : Nat) (b : Bytes) : Option Int := if b.length ≤ limit then some (scriptNum b) else none

/-- A stack element read as a boolean: any zero, including negative zero, is false. -/
def truthy (b : Bytes) : Bool := scriptNum b != 0

/-- A boolean result. -/
def encodeBool (b : Bool) : Bytes := if b then [1] else []

def unary (f : Int → Bytes) : List Bytes → Option (List Bytes)
  | a :: s => do return f (← num 4 a) :: s
  | _ => none

/-- `f left right`, where right was on top. -/
def binary (f : Int → Int → Bytes) : List Bytes → Option (List Bytes)
  | b :: a :: s => do return f (← num 4 a) (← num 4 b) :: s
  | _ => none

/-- The index operand of OP_PICK and OP_ROLL: it must name an element below it. -/
def index (a : Bytes) (s : List Bytes) : Option Nat := do
  let n ← num 4 a
  if 0 ≤ n ∧ n < s.length then some n.toNat else none

/-- Operations that only read and write the stack. -/
def stackOp (e : Env) (code : Nat) (s : List Bytes) : Option (List Bytes) :=
  match code with
  | 97 => some s                                                          -- OP_NOP
  | 105 => match s with | a :: s => if truthy a then some s else none | _ => none      -- OP_VERIFY
  | 109 => match s with | _ :: _ :: s => some s | _ => none               -- OP_2DROP
  | 110 => match s with | b :: a :: s => some (b :: a :: b :: a :: s) | _ => none      -- OP_2DUP
  | 111 => match s with | c :: b :: a :: s => some (c :: b :: a :: c :: b :: a :: s) | _ => none  -- OP_3DUP
  | 112 => match s with | d :: c :: b :: a :: s => some (b :: a :: d :: c :: b :: a :: s) | _ => none  -- OP_2OVER
  | 113 => match s with
    | f :: e :: d :: c :: b :: a :: s => some (b :: a :: f :: e :: d :: c :: s)        -- OP_2ROT
    | _ => none
  | 114 => match s with | d :: c :: b :: a :: s => some (b :: a :: d :: c :: s) | _ => none  -- OP_2SWAP
  | 115 => match s with | a :: s => some (if truthy a then a :: a :: s else a :: s) | _ => none  -- OP_IFDUP
  | 116 => some (encodeNum s.length :: s)                                 -- OP_DEPTH
  | 117 => match s with | _ :: s => some s | _ => none                    -- OP_DROP
  | 118 => match s with | a :: s => some (a :: a :: s) | _ => none        -- OP_DUP
  | 119 => match s with | b :: _ :: s => some (b :: s) | _ => none        -- OP_NIP
  | 120 => match s with | b :: a :: s => some (a :: b :: a :: s) | _ => none           -- OP_OVER
  | 121 => match s with | n :: s => do let i ← index n s; return (← s[i]?) :: s | _ => none  -- OP_PICK
  | 122 => match s with | n :: s => do let i ← index n s; return (← s[i]?) :: s.eraseIdx i | _ => none  -- OP_ROLL
  | 123 => match s with | c :: b :: a :: s => some (a :: c :: b :: s) | _ => none      -- OP_ROT
  | 124 => match s with | b :: a :: s => some (a :: b :: s) | _ => none   -- OP_SWAP
  | 125 => match s with | b :: a :: s => some (b :: a :: b :: s) | _ => none           -- OP_TUCK
  | 130 => match s with | a :: s => some (encodeNum a.length :: a :: s) | _ => none    -- OP_SIZE
  | 135 => match s with | b :: a :: s => some (encodeBool (a == b) :: s) | _ => none   -- OP_EQUAL
  | 136 => match s with | b :: a :: s => if a = b then some s else none | _ => none    -- OP_EQUALVERIFY
  | 139 => unary (fun n => encodeNum (n + 1)) s                           -- OP_1ADD
  | 140 => unary (fun n => encodeNum (n - 1)) s                           -- OP_1SUB
  | 143 => unary (fun n => encodeNum (-n)) s                              -- OP_NEGATE
  | 144 => unary (fun n => encodeNum n.natAbs) s                               -- OP_ABS
  | 145 => unary (fun n => encodeBool (n == 0)) s                         -- OP_NOT
  | 146 => unary (fun n => encodeBool (n != 0)) s                         -- OP_0NOTEQUAL
  | 147 => binary (fun a b => encodeNum (a + b)) s                        -- OP_ADD
  | 148 => binary (fun a b => encodeNum (a - b)) s                        -- OP_SUB
  | 154 => binary (fun a b => encodeBool (a ≠ 0 ∧ b ≠ 0)) s               -- OP_BOOLAND
  | 155 => binary (fun a b => encodeBool (a ≠ 0 ∨ b ≠ 0)) s               -- OP_BOOLOR
  | 156 => binary (fun a b => encodeBool (a = b)) s                       -- OP_NUMEQUAL
  | 157 => match s with                                                   -- OP_NUMEQUALVERIFY
    | b :: a :: s => do if (← num 4 a) = (← num 4 b) then return s else none
    | _ => none
  | 158 => binary (fun a b => encodeBool (a ≠ b)) s                       -- OP_NUMNOTEQUAL
  | 159 => binary (fun a b => encodeBool (a < b)) s                       -- OP_LESSTHAN
  | 160 => binary (fun a b => encodeBool (a > b)) s                       -- OP_GREATERTHAN
  | 161 => binary (fun a b => encodeBool (a ≤ b)) s                       -- OP_LESSTHANOREQUAL
  | 162 => binary (fun a b => encodeBool (a ≥ b)) s                       -- OP_GREATERTHANOREQUAL
  | 163 => binary (fun a b => encodeNum (min a b)) s                      -- OP_MIN
  | 164 => binary (fun a b => encodeNum (max a b)) s                      -- OP_MAX
  | 165 => match s with                                                   -- OP_WITHIN
    | hi :: lo :: x :: s => do
      let x ← num 4 x
      return encodeBool ((← num 4 lo) ≤ x ∧ x < (← num 4 hi)) :: s
    | _ => none
  | 166 => match s with | a :: s => some (e.rmd160 a :: s) | _ => none    -- OP_RIPEMD160
  | 167 => match s with | a :: s => some (e.sha1 a :: s) | _ => none      -- OP_SHA1
  | 168 => match s with | a :: s => some (e.sha256 a :: s) | _ => none    -- OP_SHA256
  | 169 => match s with | a :: s => some (e.hash160 a :: s) | _ => none   -- OP_HASH160
  | 170 => match s with | a :: s => some (e.hash256 a :: s) | _ => none   -- OP_HASH256
  | n => if n = 176 ∨ (179 ≤ n ∧ n ≤ 185) then some s else none           -- OP_NOP1, OP_NOP4..10; others undefined

/-! ## Signatures -/

/-- The bytes that push `d` with the size-selected opcode (never a number opcode). -/
def pushBytes (d : Bytes) : Bytes :=
  let n := d.length
  (if n ≤ 75 then [UInt8.ofNat n]
   else if n ≤ 0xff then [76, UInt8.ofNat n]
   else if n ≤ 0xffff then 77 :: leBytes 2 n
   else 78 :: leBytes 4 n) ++ d

/-- What a signature covers: the script after the last executed OP_CODESEPARATOR; before BIP143 without the signatures
being checked and without OP_CODESEPARATOR. -/
def scriptCode (e : Env) (sigs : List Bytes) (t : State) : List Op :=
  let cur := e.ops.drop t.sep
  if e.segwit && e.flags.bip143 then cur
  else cur.filter fun o => o.toData ≠ [171] ∧ ∀ d ∈ sigs, o.toData ≠ pushBytes d

/-- One ECDSA check: `none` is script failure (BIP66 encoding), otherwise whether the signature is valid. -/
def checkEcdsa (e : Env) (code : List Op) (sig key : Bytes) : Option Bool :=
  if sig = [] then some false
  else match e.decodeSig sig.dropLast e.flags.bip66 with
    | none => if e.flags.bip66 then none else some false
    | some s => match e.sighash code (sig.getLastD 0) with
      | none => some false
      | some h => some (e.verifyEcdsa key h s)

/-- One Schnorr check of a 32-byte key (BIP342). -/
def checkSchnorr (e : Env) (sig key : Bytes) (t : State) : Bool :=
  let sized : Option (Bytes × UInt8) :=
    if sig.length = 64 then some (sig, 0)
    else if sig.length = 65 ∧ sig.getLastD 0 ∈ ([1, 2, 3, 0x81, 0x82, 0x83] : List UInt8) then
      some (sig.take 64, sig.getLastD 0)
    else none
  match sized with
  | none => false
  | some (s, flag) => match e.sighashTap t.sep flag with
    | none => false
    | some h => e.verifySchnorr key h s

/-- A tapscript signature check: `none` is script failure, otherwise whether the (non-empty) signature counts, with the
budget charged. Keys that are not 32 bytes are reserved: any non-empty signature is valid. -/
def checkTap (e : Env) (sig key : Bytes) (t : State) : Option (Bool × State) :=
  if key = [] then none
  else if sig = [] then some (false, t)
  else if t.budget < 50 then none
  else if key.length = 32 ∧ !checkSchnorr e sig key t then none
  else some (true, { t with budget := t.budget - 50 })

/-- The multisig matching loop: each signature must match one of the remaining keys in order; it stops as soon as there
are more signatures than keys left. -/
def multisig (e : Env) (code : List Op) : List Bytes → List Bytes → Option Bool
  | [], _ => some true
  | _ :: _, [] => some false
  | sig :: sigs, key :: keys =>
    if keys.length < sigs.length then some false
    else do
      if ← checkEcdsa e code sig key then multisig e code sigs keys
      else multisig e code (sig :: sigs) keys

/-- Pop a count then that many elements. -/
def popCounted (limit : Nat) (s : List Bytes) : Option (List Bytes × List Bytes) :=
  match s with
  | [] => none
  | c :: s => do
    let n ← num 4 c
    if n < 0 ∨ n > limit ∨ n.toNat > s.length then none
    else some (s.take n.toNat, s.drop n.toNat)

/-- OP_CHECKMULTISIG(VERIFY): keys, signatures, and a dummy element. -/
def checkMultisig (e : Env) (t : State) : Option (Bool × State) := do
  let (keys, s) ← popCounted 20 t.stack
  let t := { t with nops := t.nops + keys.length }
  if t.nops > 201 then none
  else
    let (sigs, s) ← popCounted keys.length s
    match s with
    | [] => none
    | dummy :: s =>
      if e.flags.bip147 ∧ dummy ≠ [] then none
      else do
        let ok ← multisig e (scriptCode e sigs t) sigs keys
        return (ok, { t with stack := s })

def checkSig (e : Env) (t : State) : Option (Bool × State) :=
  match t.stack with
  | key :: sig :: s =>
    let t := { t with stack := s }
    if e.flags.bip342 then checkTap e sig key t
    else do return (← checkEcdsa e (scriptCode e [sig] t) sig key, t)
  | _ => none

def lockTimeOk (e : Env) (s : List Bytes) : Bool :=
  match s with
  | [] => false
  | a :: _ => match num 5 a with
    | none => false
    | some n =>
      0 ≤ n && decide (n < 500000000 ↔ e.locktime < 500000000) && decide (n ≤ e.locktime) && decide (e.sequence ≠ 0xffffffff)

def sequenceOk (e : Env) (s : List Bytes) : Bool :=
  match s with
  | [] => false
  | a :: _ => match num 5 a with
    | none => false
    | some n =>
      let v := n.toNat
      let mask := 0x0040ffff
      if n < 0 then false
      else if v &&& 0x80000000 ≠ 0 then true
      else
        decide (2 ≤ e.version) && decide (e.sequence &&& 0x80000000 = 0) &&
        decide (v &&& mask < 0x00400000 ↔ e.sequence &&& mask < 0x00400000) && decide (v &&& mask ≤ e.sequence &&& mask)

/-! ## Conditionals -/

/-- The value OP_IF tests: in tapscript only `[]` and `[1]` are accepted. -/
def condition (e : Env) (a : Bytes) : Option Bool :=
  if e.flags.bip342 then (if a = [] then some false else if a = [1] then some true else none)
  else some (truthy a)

/-- OP_IF / OP_NOTIF. -/
def openIf (e : Env) (negate : Bool) (t : State) : Option State :=
  if t.exec.all id then
    match t.stack with
    | [] => none
    | a :: s => do
      let v ← condition e a
      return { t with stack := s, exec := (if negate then !v else v) :: t.exec }
  else some { t with exec := false :: t.exec }

def onStack (t : State) (r : Option (List Bytes)) : Option State := r.map fun s => { t with stack := s }

/-- One executed operation, `i` its index. -/
def execute (e : Env) (i : Nat) (op : Op) (t : State) : Option State :=
  let code := op.code.toNat
  if code = 0 then some { t with stack := [] :: t.stack }
  else if code ≤ 78 then some { t with stack := op.data :: t.stack }
  else if code = 79 then some { t with stack := [0x81] :: t.stack }
  else if 81 ≤ code ∧ code ≤ 96 then some { t with stack := [UInt8.ofNat (code - 80)] :: t.stack }
  else match code with
  | 99 => openIf e false t
  | 100 => openIf e true t
  | 103 => match t.exec with | [] => none | b :: r => some { t with exec := (!b) :: r }
  | 104 => match t.exec with | [] => none | _ :: r => some { t with exec := r }
  | 107 => match t.stack with | [] => none | a :: s => some { t with stack := s, alt := a :: t.alt }
  | 108 => match t.alt with | [] => none | a :: r => some { t with stack := a :: t.stack, alt := r }
  | 171 => some { t with sep := i + 1 }
  | 172 => do let (ok, t) ← checkSig e t; return { t with stack := encodeBool ok :: t.stack }
  | 173 => do let (ok, t) ← checkSig e t; if ok then return t else none
  | 174 => if e.flags.bip342 then none else do let (ok, t) ← checkMultisig e t; return { t with stack := encodeBool ok :: t.stack }
  | 175 => if e.flags.bip342 then none else do let (ok, t) ← checkMultisig e t; if ok then return t else none
  | 177 => if !e.flags.bip65 || lockTimeOk e t.stack then some t else none
  | 178 => if !e.flags.bip112 || sequenceOk e t.stack then some t else none
  | 186 =>
    if !e.flags.bip342 then none
    else match t.stack with
    | key :: n :: sig :: s => do
      let n ← num 4 n
      let (ok, t) ← checkTap e sig key { t with stack := s }
      return { t with stack := encodeNum (if ok then n + 1 else n) :: s }
    | _ => none
  | n => onStack t (stackOp e n t.stack)

/-- Opcodes that fail the script even when not executed. -/
def disabled (code : Nat) : Bool :=
  code ∈ [126, 127, 128, 129, 131, 132, 133, 134, 141, 142, 149, 150, 151, 152, 153]

/-- Operations other than pushes are counted, except in tapscript. -/
def counted (e : Env) (op : Op) (t : State) : State :=
  if !e.flags.bip342 && decide (op.code.toNat > 96) then { t with nops := t.nops + 1 } else t

/-- One operation: limits, then execution unless inside an untaken branch (OP_IF..OP_ENDIF always run). -/
def step (e : Env) (i : Nat) (op : Op) (t : State) : Option State :=
  if op.underflow then none
  else if op.data.length > 520 then none
  else
    let t := counted e op t
    if !e.flags.bip342 && decide (t.nops > 201) then none
    else if disabled op.code.toNat then none
    else do
      let t ← if t.exec.all id || (99 ≤ op.code.toNat && op.code.toNat ≤ 104) then execute e i op t else some t
      if t.stack.length + t.alt.length > 1000 then none else some t

def steps (e : Env) : Nat → List Op → State → Option State
  | _, [], t => some t
  | i, op :: ops, t => do steps e (i + 1) ops (← step e i op t)

/-- The opcodes BIP342 reserves as OP_SUCCESS. -/
def successCode (code : Nat) : Bool :=
  code = 80 || code = 98 || (126 ≤ code && code ≤ 129) || (131 ≤ code && code ≤ 134) || (137 ≤ code && code ≤ 138) ||
  (141 ≤ code && code ≤ 142) || (149 ≤ code && code ≤ 153) || (187 ≤ code && code ≤ 254)

/-- Outcome of a script. -/
inductive Verdict
  | fail
  /-- success without execution (BIP342) -/
  | reserved
  | done (t : State)
deriving DecidableEq

/-- A whole script. -/
def eval (e : Env) (t : State) : Verdict :=
  if e.flags.bip342 && e.ops.any (fun o => !o.underflow && successCode o.code.toNat) then .reserved
  else if e.flags.bip342 && decide (t.stack.length > 1000) then .fail
  else if (e.flags.bip342 || e.flags.bip141) && (e.witness.getD []).any (fun x => decide (x.length > 520)) then .fail
  else if !e.flags.bip342 && decide ((opsData e.ops).length > 10000) then .fail
  else match steps e 0 e.ops t with
    | none => .fail
    | some t => if t.exec = [] then .done t else .fail

end Verif.Spec.Script

namespace Verif.Machine

/-- An element within limits: an integer fits int64_t with room to spare (so no handler's arithmetic overflows), and a
chunk has at most 520 bytes. -/
def Small : Val → Prop
  | .bool _ => True
  | .int i => -2 ^ 62 ≤ i ∧ i ≤ 2 ^ 62
  | .chunk c => c.length ≤ 520

/-- The hash functions have their standard output sizes. -/
structure Env.HashSizes (e : Env) : Prop where
  rmd160 : ∀ b, (e.rmd160 b).length = 20
  sha1 : ∀ b, (e.sha1 b).length = 20
  sha256 : ∀ b, (e.sha256 b).length = 32
  hash160 : ∀ b, (e.hash160 b).length = 20
  hash256 : ∀ b, (e.hash256 b).length = 32

/-- What the environment must satisfy: hash sizes, and a total pre-tapscript signature hash. -/
structure Env.OK (e : Env) : Prop where
  sizes : e.HashSizes
  total : e.flags.bip342 = false → ∀ sub f, (e.sighash sub f).isSome = true

/-- A program about to run: a primary stack, a BIP342 budget and nothing else. -/
def start {S : Type} (stack : S) (budget : Nat) : St S := { primary := stack, budget := budget }

end Verif.Machine

namespace Verif.Spec.Script

/-- The specification state about to run. -/
def start (stack : List Bytes) (budget : Nat) : State := { stack := stack, budget := budget }

/-- Nesting depth after the operations, `none` if an ELSE or ENDIF has no open IF. -/
def depth : List Op → Nat → Option Nat
  | [], d => some d
  | op :: ops, d =>
    match op.code.toNat with
    | 99 | 100 => depth ops (d + 1)
    | 103 => if d = 0 then none else depth ops d
    | 104 => if d = 0 then none else depth ops (d - 1)
    | _ => depth ops d

end Verif.Spec.Script
