/-!
# Model of compact difficulty and block work

Numbers are `Nat`; `uint256_t` and `uint32_t` wrap-around is written out where it can occur.
-/
namespace Verif

/-- `ceilinged_log2` for `uint256_t` (include/bitcoin/system/impl/math/logarithm.ipp:128-140):
zero for values below two, else one plus the index of the top bit of `value - 1`. -/
def clog2 (n : Nat) : Nat := if n ≤ 1 then 0 else Nat.log2 (n - 1) + 1

/-- `ceilinged_log256` for `uint256_t` (logarithm.ipp:182-195): `ceilinged_divide(ceilinged_log2(value), 8)`. -/
def clog256 (n : Nat) : Nat := (clog2 n + 7) / 8

/-- `base256e::compress` (include/bitcoin/system/impl/radix/base_2n.ipp:64-83), span 256, precision 24:
the mantissa is cast to 32 bits and or-ed with the shifted exponent. -/
def base256Compress (n : Nat) : Nat :=
  if n = 0 then 0
  else
    let shift := 8 * clog256 n
    let mantissa := (if shift > 24 then n >>> (shift - 24) else n <<< (24 - shift)) % 2 ^ 32
    ((shift / 8) <<< 24 ||| mantissa) % 2 ^ 32

/-- `base256e::expand` (base_2n.ipp:36-57): zero if the exponent exceeds 32, else the shifted mantissa in 256 bits. -/
def base256Expand (b : Nat) : Nat :=
  let shift := 8 * (b >>> 24)
  let mantissa := b % 2 ^ 24
  if shift > 256 then 0
  else if shift > 24 then (mantissa <<< (shift - 24)) % 2 ^ 256
  else mantissa >>> (24 - shift)

/-- `bit_width` (include/bitcoin/system/impl/math/bits.ipp:40-44). -/
def bitWidth (n : Nat) : Nat := if n = 0 then 0 else Nat.log2 n + 1

/-- `byte_width` (include/bitcoin/system/impl/math/bytes.ipp:36-42): zero for zero, else 1 + floor(log256). -/
def byteWidth (n : Nat) : Nat := if n = 0 then 0 else Nat.log2 n / 8 + 1

/-- `is_negated` (bytes.ipp:88-92): non-zero and the bit width is a multiple of eight. -/
def isNegated (n : Nat) : Bool := n != 0 && bitWidth n % 8 + 1 == 1

/-- `compact::expand` (include/bitcoin/system/impl/chain/compact.ipp:83-104) with `to_compact`/`from_compact`
(62-80): bit 23 is the "negative" flag, the low 24 bits the mantissa, the rest the exponent. -/
def expand (b : Nat) : Nat :=
  let exponent := b >>> 24
  let mantissa := b % 2 ^ 24
  if b.testBit 23 then 0
  else if exponent = 33 ∧ isNegated mantissa = true ∧ byteWidth mantissa = 2 then
    base256Expand ((exponent - 1) <<< 24 ||| mantissa <<< 8)
  else base256Expand (exponent <<< 24 ||| mantissa)

/-- `compact::compress` (compact.ipp:106-122). -/
def compress (n : Nat) : Nat :=
  let c := base256Compress n
  let exponent := c >>> 24
  let mantissa := c % 2 ^ 24
  if c.testBit 23 then (exponent + 1) <<< 24 ||| mantissa >>> 8
  else exponent <<< 24 ||| mantissa

/-- `header::proof(bits)` (src/chain/header.cpp:226-247) in 256-bit arithmetic:
`++(~target / (target + 1))`; zero for a zero target. -/
def headerProof (bits : Nat) : Nat :=
  let target := expand bits
  if target = 0 then 0
  else (((2 ^ 256 - 1 - target) / ((target + 1) % 2 ^ 256)) + 1) % 2 ^ 256

end Verif
