import Verif.Spec.Spend
/-!
# Specification: time locks

BIP65 (CHECKLOCKTIMEVERIFY) and BIP112 with BIP68 (CHECKSEQUENCEVERIFY), in terms of the number the script pushes and the fields of the
spending transaction and input.
-/
namespace Verif.Spec

/-- The two kinds of lock. -/
inductive Lock where
  | absolute
  | relative
deriving DecidableEq

/-- OP_CHECKLOCKTIMEVERIFY and OP_CHECKSEQUENCEVERIFY. -/
def Lock.code : Lock → UInt8
  | .absolute => 0xb1
  | .relative => 0xb2

/-- Whether the rule is active. -/
def Lock.active (flags : Machine.Flags) : Lock → Bool
  | .absolute => flags.bip65
  | .relative => flags.bip112

/-- BIP65: the number has at most five bytes, is not negative, is a height or a time as the lock time is and not above it, and the input is not final. -/
def Absolute (d : Bytes) (locktime sequence : Nat) : Prop :=
  d.length ≤ 5 ∧ ∃ n : Nat, scriptNum d = n ∧ (n < 500000000 ↔ locktime < 500000000) ∧ n ≤ locktime ∧ sequence ≠ 2 ^ 32 - 1

/-- BIP112: the number has at most five bytes and is not negative; unless its bit 31 is set the transaction has at least version 2, the sequence of
the input has bit 31 clear and bit 22 as in the number, and its low 16 bits are not below those of the number. -/
def Relative (d : Bytes) (version sequence : Nat) : Prop :=
  d.length ≤ 5 ∧ ∃ n : Nat, scriptNum d = n ∧ (n.testBit 31 = true ∨
    2 ≤ version ∧ sequence.testBit 31 = false ∧ n.testBit 22 = sequence.testBit 22 ∧ n % 2 ^ 16 ≤ sequence % 2 ^ 16)

/-- The lock is open. -/
def Lock.open_ (d : Bytes) (locktime sequence version : Nat) : Lock → Prop
  | .absolute => Absolute d locktime sequence
  | .relative => Relative d version sequence

/-- The operation pushes `d`: a push of its bytes, or one of the opcodes for 1 to 16. -/
def Loads (op : Op) (d : Bytes) : Prop :=
  (d.length ≤ 520 ∧ op = { code := Machine.opcodeFromSize d.length, data := d }) ∨
  ∃ k, 1 ≤ k ∧ k ≤ 16 ∧ op = { code := UInt8.ofNat (80 + k) } ∧ d = [UInt8.ofNat k]

/-- The operations of a script that starts with a number and a lock. -/
def Starts (l : Lock) (d : Bytes) (ops : List Op) : Prop :=
  ∃ op rest, Loads op d ∧ ops = op :: { code := l.code } :: rest

end Verif.Spec
