import Verif.Model.Mnemonic
/-!
# Electrum v2 mnemonics

Source: src/wallet/mnemonics/electrum.cpp. Text is UTF-8 bytes. Parameters: the build and checked flag of the hash functions,
`norm` (`try_normalize` of a word, languages.cpp:97-114) and `form` (`to_compressed_form` of `to_non_combining_form`, applied to a
sentence). The word lists of `words::electrum` are references to those of `words::mnemonic` (src/words/catalogs/electrum.cpp), so
`dictionaries_` (electrum.cpp:60-74) is `Mnemonic.dictionaries`.
-/
namespace Verif.Electrum
open Verif Verif.Mnemonic

/-- `seed_prefix` (electrum.hpp:51-60). -/
inductive Prefix where
  | old | bip39 | standard | witness | twoFactor | twoFactorWitness | none
  deriving DecidableEq, Repr

/-- `to_version` (electrum.cpp:443-463) and the constants (electrum.cpp:45-51). -/
def toVersion : Prefix → Bytes
  | .old => Radix.ascii "old"
  | .bip39 => Radix.ascii "bip39"
  | .standard => Radix.ascii "01"
  | .witness => Radix.ascii "100"
  | .twoFactor => Radix.ascii "101"
  | .twoFactorWitness => Radix.ascii "102"
  | .none => Radix.ascii "none"

/-- `is_seedable` (electrum.cpp:393-406). -/
def isSeedable : Prefix → Bool
  | .standard | .witness | .twoFactor | .twoFactorWitness => true
  | _ => false

/-! ### Sizers -/

/-- `unused_bits` (electrum.cpp:249-253) with `entropy_bits` (electrum.cpp:213-217) and `index_bits` 11. -/
def unusedBits (size : Nat) : Nat := size * 8 % 11
/-- `unused_bytes` (electrum.cpp:255-259). -/
def unusedBytes (size : Nat) : Nat := unusedBits size / 8
/-- `usable_size` (electrum.cpp:261-264). -/
def usableSize (size : Nat) : Nat := size - unusedBytes size
/-- `word_count(entropy)` (electrum.cpp:237-241). -/
def wordCount (size : Nat) : Nat := size * 8 / 11
/-- `entropy_size(bit_strength)` (electrum.cpp:225-229). -/
def entropySize (strength : Nat) : Nat := (strength + 7) / 8
/-- `word_count(bit_strength)` (electrum.cpp:243-247). -/
def strengthWords (strength : Nat) : Nat := (strength + 10) / 11
/-- `is_valid_entropy_size` (electrum.cpp:371-385), strengths 132 and 506. -/
def isValidSize (size : Nat) : Bool := decide (size ≥ entropySize 132) && decide (size ≤ entropySize 506)
/-- `is_valid_word_count` (electrum.cpp:387-391). -/
def isValidCount (count : Nat) : Bool := decide (count ≥ strengthWords 132) && decide (count ≤ strengthWords 506)

/-! ### Coders -/

/-- `encoder` (electrum.cpp:79-85). -/
def encoder (entropy : Bytes) (l : Language) : List Bytes := decode2048 entropy l
/-- `decoder` (electrum.cpp:87-94). -/
def decoder (words : List Bytes) (l : Language) : Bytes := (encode2048 words l).getD []

/-! ### Checkers -/

/-- `is_ambiguous(count, prefix)` (electrum.cpp:269-283). -/
def isAmbiguousCount (count : Nat) (p : Prefix) : Bool :=
  if p ≠ .twoFactor then false else count != strengthWords 132 && decide (count < 20)

section
variable (b : Sha.Build) (checked : Bool) (norm form : Bytes → Bytes)

/-- `validator` (electrum.cpp:146-156). -/
def validator (words : List Bytes) (p : Prefix) : Bool :=
  let sentence := form (join [0x20] words)
  let seed := Hmac.code (HashFn.acc512 b) checked sentence (Radix.ascii "Seed version")
  (toVersion p).isPrefixOf (Radix.encode16 seed)

/-- Whether `electrum_v1(words, en)` is valid (electrum.cpp:305, languages.cpp:166-169). -/
def isV1 (words : List Bytes) : Bool := (v1FromWords norm words .en).base.isValid
/-- Whether `mnemonic(words)` is valid (electrum.cpp:310). -/
def isBip39 (words : List Bytes) : Bool := (fromWords (HashFn.sha256Hash b checked) norm words .none).isValid

/-- `to_conflict` (electrum.cpp:301-314). -/
def toConflict (words : List Bytes) : Prefix :=
  if isV1 norm words then .old else if isBip39 b checked norm words then .bip39 else .none

/-- `is_conflict` (electrum.cpp:296-299). -/
def isConflict (words : List Bytes) : Bool := toConflict b checked norm words != .none

/-- `normalized_is_prefix` (electrum.cpp:316-333). -/
def normalizedIsPrefix (words : List Bytes) (p : Prefix) : Bool :=
  if p = .old then isV1 norm words
  else if p = .bip39 then isBip39 b checked norm words
  else if isAmbiguousCount words.length p then false
  else if validator b checked form words p then true
  else p == .none

/-- `normalized_to_prefix` (electrum.cpp:335-355). -/
def normalizedToPrefix (words : List Bytes) : Prefix :=
  let conflict := toConflict b checked norm words
  if conflict ≠ .none then conflict
  else if normalizedIsPrefix b checked norm form words .standard then .standard
  else if normalizedIsPrefix b checked norm form words .witness then .witness
  else if normalizedIsPrefix b checked norm form words .twoFactor then .twoFactor
  else if normalizedIsPrefix b checked norm form words .twoFactorWitness then .twoFactorWitness
  else .none

/-- `is_prefix(words, prefix)` (electrum.cpp:408-418). -/
def isPrefix (words : List Bytes) (p : Prefix) : Bool :=
  let tokens := words.map norm
  if dictionaries.contains tokens .none = .none then p == .none else normalizedIsPrefix b checked norm form tokens p

/-- `to_prefix(words)` (electrum.cpp:426-436): the words passed on are those given, not the normalized ones. -/
def toPrefix (words : List Bytes) : Prefix :=
  let tokens := words.map norm
  if dictionaries.contains tokens .none = .none then .none else normalizedToPrefix b checked norm form words

/-! ### Construction -/

/-- An `electrum` instance. Used for electrum.cpp:468-471. -/
structure Electrum where
  base : V1
  pre : Prefix
  deriving DecidableEq

/-- The invalid instance (electrum.cpp:468-471). -/
def Electrum.invalid : Electrum := ⟨V1.invalid, .none⟩
/-- `electrum(old)` (electrum.cpp:473-476). -/
def ofV1 (old : V1) : Electrum := ⟨old, if old.base.isValid then .old else .none⟩
/-- The protected constructor (electrum.cpp:494-499). -/
def Electrum.make (entropy : Bytes) (words : List Bytes) (l : Language) (p : Prefix) : Electrum := ⟨⟨⟨entropy, words, l⟩, []⟩, p⟩

/-- `hash[sub1(entropy_size)] &= padding_mask` (electrum.cpp:118, 129): the mask is `0xff << unused_bits`, the result one byte. -/
def mask (hash : Bytes) : Bytes :=
  hash.dropLast ++ [UInt8.ofNat ((hash.getLastD 0).toNat &&& (255 <<< unusedBits hash.length))]

/-- The loop of `grinder` (electrum.cpp:122-141): `limit` further turns; the number of turns that failed is counted in `k`. -/
def grind (p : Prefix) (l : Language) (size : Nat) : Nat → Nat → Bytes → Option (Bytes × List Bytes × Nat)
  | limit, k, hash =>
    let hash := mask hash
    let words := encoder hash l
    if validator b checked form words p && !isConflict b checked norm words then some (hash, words, k)
    else match limit with
      | 0 => none
      | limit + 1 => grind p l size limit (k + 1) ((HashFn.sha512Hash b checked hash).take size)

/-- `grinder` (electrum.cpp:96-144). `resize` here only ever removes bytes. -/
def grinder (entropy : Bytes) (p : Prefix) (l : Language) (limit : Nat) : Option (Bytes × List Bytes × Nat) :=
  let size := usableSize entropy.length
  grind b checked norm form p l size limit 0 (entropy.take size)

/-- `from_entropy` (electrum.cpp:504-539). For the prefix `old` the language is not passed on: the default of `electrum_v1` is
English. -/
def fromEntropy (entropy : Bytes) (p : Prefix) (l : Language) (limit : Nat) : Electrum :=
  if p = .none then .invalid
  else if p = .bip39 then .invalid
  else if p = .old then ofV1 (v1FromEntropy entropy .en)
  else if !isValidSize entropy.length then .invalid
  else if !dictionaries.exists_ l then .invalid
  else if isAmbiguousCount (wordCount entropy.length) p then .invalid
  else match grinder b checked norm form entropy p l limit with
    | Option.none => .invalid
    | some (ground, words, _) => if words.isEmpty then .invalid else .make ground words l p

/-- `from_words` (electrum.cpp:541-573). -/
def fromWords (words : List Bytes) (l : Language) : Electrum :=
  if !isValidCount words.length then .invalid
  else
    let old := v1FromWords norm words l
    if old.base.isValid then ofV1 old
    else
      let tokens := words.map norm
      let lexicon := dictionaries.contains tokens l
      if lexicon = .none then .invalid
      else if l ≠ .none ∧ lexicon ≠ l then .invalid
      else if isAmbiguous tokens l lexicon then .invalid
      else .make (decoder tokens lexicon) tokens lexicon (normalizedToPrefix b checked norm form tokens)

/-- `seeder` (electrum.cpp:158-208); `phraseForm` is everything done to the passphrase. -/
def seeder (phraseForm : Bytes → Bytes) (words : List Bytes) (passphrase : Bytes) : Bytes :=
  Hmac.pbkdKey (HashFn.acc512 b) checked 64 64 (form (join [0x20] words)) (Radix.ascii "electrum" ++ phraseForm passphrase) 2048

/-- `to_seed(passphrase)` (electrum.cpp:583-592): the null hash unless seedable. -/
def toSeed (phraseForm : Bytes → Bytes) (m : Electrum) (passphrase : Bytes) : Bytes :=
  if !m.base.base.isValid then List.replicate 64 0
  else if !isSeedable m.pre then List.replicate 64 0
  else seeder b checked form phraseForm m.base.base.words passphrase
end

end Verif.Electrum
