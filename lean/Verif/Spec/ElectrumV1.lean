import Verif.Model.Stream
/-!
# Electrum v1 ("old") mnemonics

Python source quoted in the library (electrum/old_mnemonic.py), `n = 1626`:

    mn_encode: for i in range(len(message)/8): x = int(word, 16); w1 = x % n; w2 = ((x / n) + w1) % n; w3 = ((x / n / n) + w2) % n
    mn_decode: x = w1 + n * ((w2 - w1) % n) + n * n * ((w3 - w2) % n); out += '%08x' % x
-/
namespace Verif.Spec.ElectrumV1

/-- The word numbers of a 32 bit number. -/
def encode (x : Nat) : List Nat :=
  let n := 1626
  let w1 := x % n
  let w2 := (x / n + w1) % n
  let w3 := (x / n / n + w2) % n
  [w1, w2, w3]

/-- The number of three word numbers (Python's `%` is never negative). -/
def decode (w1 w2 w3 : Nat) : Nat :=
  let n : Int := 1626
  (w1 + n * ((w2 - w1 : Int).emod n) + n * n * ((w3 - w2 : Int).emod n)).toNat

/-- `'%08x' % x`: at least eight lower case hexadecimal digits (nine are enough here, `decode` is below `2 * 16 ^ 8`). -/
def hex8 (x : Nat) : Bytes :=
  let k := if x < 16 ^ 8 then 8 else 9
  (List.range k).map fun i =>
    let d := x / 16 ^ (k - 1 - i) % 16
    UInt8.ofNat (if d < 10 then 48 + d else 87 + d)

/-- The message taken eight hexadecimal digits (four bytes) at a time. -/
def quads : Bytes → List Nat
  | a :: b :: c :: d :: rest => (a.toNat * 2 ^ 24 + b.toNat * 2 ^ 16 + c.toNat * 2 ^ 8 + d.toNat) :: quads rest
  | _ => []

/-- The word numbers taken in threes. -/
def values : List Nat → List Nat
  | a :: b :: c :: rest => decode a b c :: values rest
  | _ => []

/-- `mn_encode`: the word numbers of a message. -/
def mnEncode (e : Bytes) : List Nat := (quads e).flatMap encode

/-- `mn_decode`: the text of word numbers. -/
def mnDecode (ns : List Nat) : Bytes := (values ns).flatMap hex8

end Verif.Spec.ElectrumV1
