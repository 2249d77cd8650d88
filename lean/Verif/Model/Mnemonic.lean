import Verif.Model.Pack
import Verif.Model.HashFunctions
import Verif.Model.Catalog.En
import Verif.Model.Catalog.Es
import Verif.Model.Catalog.It
import Verif.Model.Catalog.Fr
import Verif.Model.Catalog.Cs
import Verif.Model.Catalog.Pt
import Verif.Model.Catalog.Ja
import Verif.Model.Catalog.Ko
import Verif.Model.Catalog.ZhHans
import Verif.Model.Catalog.ZhHant
import Verif.Model.Catalog.V1En
import Verif.Model.Catalog.V1Pt
/-!
# Dictionaries, BIP39 mnemonics and Electrum v1 mnemonics

Sources: include/bitcoin/system/impl/words/{dictionary,dictionaries}.ipp, src/words/languages.cpp, src/words/catalogs,
src/wallet/mnemonics/{mnemonic,electrum_v1}.cpp, src/radix/base_2048.cpp (words). Text is UTF-8 bytes. The Unicode
normalization of `try_normalize` and of passphrases (ICU) is a parameter.
-/
namespace Verif.Mnemonic
open Verif

/-- `language` (include/bitcoin/system/words/language.hpp:27-40). -/
inductive Language where
  | en | es | it | fr | cs | pt | ja | ko | zhHans | zhHant | none
  deriving DecidableEq, Repr

/-- The bytes a number spells (how the catalogs are written down here). Used for mnemonic.cpp:44-58. -/
def wordBytes (n : Nat) : Bytes := go 40 n []
where
  go : Nat → Nat → Bytes → Bytes
  | 0, _, acc => acc
  | f + 1, n, acc => if n = 0 then acc else go f (n / 256) (UInt8.ofNat (n % 256) :: acc)

/-- `dictionary` (include/bitcoin/system/words/dictionary.hpp:34-89): identifier and `words_` with its `sorted` flag. -/
structure Dictionary where
  identifier : Language
  sorted : Bool
  words : List Bytes

/-- `std::string` less than: unsigned bytes, lexicographic. Used for collection.ipp:53-66. -/
def strLt : Bytes → Bytes → Bool
  | _, [] => false
  | [], _ :: _ => true
  | x :: xs, y :: ys => x < y || x == y && strLt xs ys

/-- The loop of `binary_search` (impl/data/collection.ipp:53-66) on signed positions, with fuel. -/
def searchLoop (list : List Bytes) (element : Bytes) : Nat → Int → Int → Int
  | 0, _, _ => -1
  | fuel + 1, left, right =>
    if left ≤ right then
      let middle := (left + right) / 2
      let value := list.getD middle.toNat []
      if strLt value element then searchLoop list element fuel (middle + 1) right
      else if strLt element value then searchLoop list element fuel left (middle - 1)
      else middle
    else -1

/-- `binary_search` (impl/data/collection.ipp:42-67). -/
def binarySearch (list : List Bytes) (element : Bytes) : Int :=
  if list.isEmpty then -1 else searchLoop list element (list.length + 1) 0 (list.length - 1 : Nat)

/-- `dictionary::index(word)` (impl/words/dictionary.ipp:84-96). -/
def Dictionary.index (d : Dictionary) (word : Bytes) : Int :=
  if d.sorted then binarySearch d.words word
  else match d.words.findIdx? (· == word) with
    | some i => i
    | none => -1

/-- `dictionary::at(index)` (impl/words/dictionary.ipp:62-66). -/
def Dictionary.at_ (d : Dictionary) (i : Nat) : Bytes := if i < d.words.length then d.words.getD i [] else []

/-- `dictionary::contains(words)` (impl/words/dictionary.ipp:114-129). -/
def Dictionary.contains (d : Dictionary) (words : List Bytes) : Bool := words.all fun w => decide (d.index w ≥ 0)

/-- `dictionaries` (include/bitcoin/system/words/dictionaries.hpp). Used for dictionaries.ipp:147-157. -/
abbrev Dictionaries := List Dictionary

/-- `to_dictionary(identifier)` (impl/words/dictionaries.ipp:147-157). -/
def Dictionaries.find (ds : Dictionaries) (l : Language) : Option Dictionary := List.find? (fun d => d.identifier == l) ds

/-- `exists` (impl/words/dictionaries.ipp:44-48). -/
def Dictionaries.exists_ (ds : Dictionaries) (l : Language) : Bool := (ds.find l).isSome

/-- `at(indexes, identifier)` (impl/words/dictionaries.ipp:77-83). -/
def Dictionaries.at_ (ds : Dictionaries) (indexes : List Nat) (l : Language) : List Bytes :=
  match ds.find l with
  | some d => indexes.map d.at_
  | none => []

/-- `index(words, identifier)` (impl/words/dictionaries.ipp:93-100). -/
def Dictionaries.index (ds : Dictionaries) (words : List Bytes) (l : Language) : List Int :=
  match ds.find l with
  | some d => words.map d.index
  | none => []

/-- `index(word, identifier)` (impl/words/dictionaries.ipp:85-91). -/
def Dictionaries.indexOne (ds : Dictionaries) (word : Bytes) (l : Language) : Int :=
  match ds.find l with
  | some d => d.index word
  | none => -1

/-- `contains(words, identifier)` (impl/words/dictionaries.ipp:123-142). -/
def Dictionaries.contains (ds : Dictionaries) (words : List Bytes) (l : Language) : Language :=
  if l ≠ .none then
    match ds.find l with
    | some d => if d.contains words then l else .none
    | none => .none
  else match List.find? (fun d => d.contains words) ds with
    | some d => d.identifier
    | none => .none

/-! ### Word lists -/

/-- `dictionaries_` of `mnemonic` (mnemonic.cpp:44-58) and `base2048` (base_2048.cpp:36-52): the same ten lists. -/
def dictionaries : Dictionaries := [
  ⟨.en, true, Catalog.en.map wordBytes⟩, ⟨.es, false, Catalog.es.map wordBytes⟩,
  ⟨.it, true, Catalog.it.map wordBytes⟩, ⟨.fr, false, Catalog.fr.map wordBytes⟩,
  ⟨.cs, false, Catalog.cs.map wordBytes⟩, ⟨.pt, true, Catalog.pt.map wordBytes⟩,
  ⟨.ja, false, Catalog.ja.map wordBytes⟩, ⟨.ko, true, Catalog.ko.map wordBytes⟩,
  ⟨.zhHans, false, Catalog.zhHans.map wordBytes⟩, ⟨.zhHant, false, Catalog.zhHant.map wordBytes⟩]

/-- `dictionaries_` of `electrum_v1` (electrum_v1.cpp:129-135). -/
def dictionariesV1 : Dictionaries := [⟨.en, false, Catalog.v1En.map wordBytes⟩, ⟨.pt, false, Catalog.v1Pt.map wordBytes⟩]

/-! ### base2048 words -/

/-- `encode_base2048_list` with the static `encode_base2048` (base_2048.cpp:56-84). -/
def encode2048 (words : List Bytes) (l : Language) : Option Bytes :=
  let indexes := dictionaries.index words l
  if indexes.isEmpty && !words.isEmpty then none
  else if indexes.any (· < 0) then none
  else some (Pack.unpack2048 (indexes.map Int.toNat))

/-- `decode_base2048_list` with the static `decode_base2048` (base_2048.cpp:97-112). -/
def decode2048 (data : Bytes) (l : Language) : List Bytes := dictionaries.at_ (Pack.pack2048 data) l

/-! ### BIP39 -/

/-- `languages` (include/bitcoin/system/words/languages.hpp:68-73): entropy, words, identifier. -/
structure Mnemonic where
  entropy : Bytes
  words : List Bytes
  lingo : Language
  deriving DecidableEq

/-- The invalid instance (languages.cpp:120-123). -/
def Mnemonic.invalid : Mnemonic := ⟨[], [], .none⟩
/-- `operator bool` (languages.cpp:166-169). -/
def Mnemonic.isValid (m : Mnemonic) : Bool := !m.entropy.isEmpty

/-- `checksum_bits(entropy)` (mnemonic.cpp:114-117). -/
def checksumBits (entropy : Bytes) : Nat := entropy.length / 4

/-- `checksum_byte` (mnemonic.cpp:102-109): `max_uint8 << mask_bits` is an `int`, the result is narrowed to a byte. -/
def checksumByte (H : Bytes → Bytes) (entropy : Bytes) : UInt8 :=
  let maskBits := 8 - checksumBits entropy
  UInt8.ofNat ((((H entropy).headD 0).toNat) &&& (255 <<< maskBits))

/-- `encoder` (mnemonic.cpp:63-70). -/
def encoder (H : Bytes → Bytes) (entropy : Bytes) (l : Language) : List Bytes :=
  decode2048 (entropy ++ [checksumByte H entropy]) l

/-- `decoder` (mnemonic.cpp:72-85). -/
def decoder (H : Bytes → Bytes) (words : List Bytes) (l : Language) : Bytes :=
  match encode2048 words l with
  | none => []
  | some buffer =>
    let entropy := buffer.dropLast
    if buffer.getLastD 0 = checksumByte H entropy then entropy else []

/-- `is_valid_entropy_size` (mnemonic.cpp:172-176). -/
def isValidEntropySize (n : Nat) : Bool := n % 4 == 0 && decide (n ≥ 16) && decide (n ≤ 32)
/-- `is_valid_word_count` (mnemonic.cpp:178-182). -/
def isValidWordCount (n : Nat) : Bool := n % 3 == 0 && decide (n ≥ 12) && decide (n ≤ 24)

/-- `from_entropy` (mnemonic.cpp:217-228). -/
def fromEntropy (H : Bytes → Bytes) (entropy : Bytes) (l : Language) : Mnemonic :=
  if !isValidEntropySize entropy.length then .invalid
  else if !dictionaries.exists_ l then .invalid
  else ⟨entropy, encoder H entropy l, l⟩

/-- `is_ambiguous` (mnemonic.cpp:147-156). -/
def isAmbiguous (words : List Bytes) (requested derived : Language) : Bool :=
  derived == .en && requested == .none && dictionaries.contains words .fr == .fr

/-- `from_words` (mnemonic.cpp:230-258); `norm` is the normalization of one word (languages.cpp:97-114). -/
def fromWords (H : Bytes → Bytes) (norm : Bytes → Bytes) (words : List Bytes) (l : Language) : Mnemonic :=
  if !isValidWordCount words.length then .invalid
  else
    let tokens := words.map norm
    let lexicon := dictionaries.contains tokens l
    if lexicon = .none then .invalid
    else if l ≠ .none ∧ lexicon ≠ l then .invalid
    else if isAmbiguous tokens l lexicon then .invalid
    else
      let entropy := decoder H tokens lexicon
      if entropy.isEmpty then .invalid else ⟨entropy, tokens, lexicon⟩

/-- `join` (src/data/string.cpp:32-50). -/
def join (delimiter : Bytes) : List Bytes → Bytes
  | [] => []
  | t :: ts => t ++ ts.flatMap fun t => delimiter ++ t

/-- `seeder` (mnemonic.cpp:87-100); `nfkd` is `to_compatibility_decomposition`. -/
def seeder (b : Sha.Build) (checked : Bool) (nfkd : Bytes → Bytes) (words : List Bytes) (passphrase : Bytes) : Bytes :=
  Hmac.pbkdKey (HashFn.acc512 b) checked 64 64 (join [0x20] words) (Radix.ascii "mnemonic" ++ nfkd passphrase) 2048

/-! ### Electrum v1 -/

/-- The number of words of a list (electrum_v1.cpp:121-124). -/
def v1Size : Int := 1626

/-- One step of `encoder` (electrum_v1.cpp:148-158): the three word positions of a 32 bit value. `floored_divide` of
non-negative values. -/
def v1Triplet (value : Nat) : List Nat :=
  let uno := (value / 1 + 0) % 1626
  let dos := (value / 1626 + uno) % 1626
  let tre := (value / (1626 * 1626) + dos) % 1626
  [uno, dos, tre]

/-- `electrum_v1::encoder` (electrum_v1.cpp:140-171): big-endian reads of four bytes (zero filled by the reader at the end). -/
def v1Encoder (entropy : Bytes) (l : Language) : List Bytes := go (entropy.length + 1) entropy
where
  go : Nat → Bytes → List Bytes
  | 0, _ => []
  | f + 1, e =>
    if e.isEmpty then []
    else
      let value := beNat ((e.take 4) ++ List.replicate (4 - e.length) 0)
      (v1Triplet value).map (fun i => (dictionariesV1.at_ [i] l).headD []) ++ go f (e.drop 4)

/-- `floored_modulo(_, size1)` (impl/math/division.ipp): the result is never negative for a positive divisor. -/
def flooredModulo (x : Int) : Int := x.fmod v1Size

/-- `v1_decoding`: entropy and overflows. -/
structure V1Decoding where
  entropy : Bytes
  overflows : List Bool
  deriving DecidableEq

/-- One word triplet of `decoder` (electrum_v1.cpp:189-206): overflow and the four bytes. -/
def v1Value (uno dos tre : Int) : Int :=
  flooredModulo (uno - 0) * 1 + flooredModulo (dos - uno) * v1Size + flooredModulo (tre - dos) * (v1Size * v1Size)

/-- `electrum_v1::decoder` (electrum_v1.cpp:173-210); the word count is a multiple of three. -/
def v1Decoder (words : List Bytes) (l : Language) : V1Decoding :=
  match words with
  | a :: b :: c :: rest =>
    let value := v1Value (dictionariesV1.indexOne a l) (dictionariesV1.indexOne b l) (dictionariesV1.indexOne c l)
    let tail := v1Decoder rest l
    ⟨beBytes 4 (value % 2 ^ 32).toNat ++ tail.entropy, decide (value > 2 ^ 32 - 1) :: tail.overflows⟩
  | _ => ⟨[], []⟩

/-- An `electrum_v1` instance. -/
structure V1 where
  base : Mnemonic
  overflows : List Bool
  deriving DecidableEq

/-- The invalid instance (electrum_v1.cpp:274-277). -/
def V1.invalid : V1 := ⟨.invalid, []⟩
/-- `overflow` (electrum_v1.cpp:364-371). -/
def V1.overflow (m : V1) : Bool := m.overflows.any id

/-- `from_entropy` (electrum_v1.cpp:327-338). -/
def v1FromEntropy (entropy : Bytes) (l : Language) : V1 :=
  if !(entropy.length == 16 || entropy.length == 32) then .invalid
  else if !dictionariesV1.exists_ l then .invalid
  else ⟨⟨entropy, v1Encoder entropy l, l⟩, []⟩

/-- `from_words` (electrum_v1.cpp:340-358). -/
def v1FromWords (norm : Bytes → Bytes) (words : List Bytes) (l : Language) : V1 :=
  if !(words.length == 12 || words.length == 24) then .invalid
  else
    let tokens := words.map norm
    let lexicon := dictionariesV1.contains tokens l
    if lexicon = .none then .invalid
    else if l ≠ .none ∧ lexicon ≠ l then .invalid
    else
      let d := v1Decoder tokens lexicon
      ⟨⟨d.entropy, tokens, lexicon⟩, d.overflows⟩

/-- `seed_entropy` (electrum_v1.cpp:82-108): the text that is hashed, with "1" before each overflowed value. -/
def seedEntropy (m : V1) : Bytes :=
  if m.overflows.isEmpty then Radix.encode16 m.base.entropy
  else if m.overflows.length * 4 ≠ m.base.entropy.length then []
  else go m.overflows m.base.entropy
where
  go : List Bool → Bytes → Bytes
  | o :: os, e => (if o then Radix.ascii "1" else []) ++ Radix.encode16 (e.take 4) ++ go os (e.drop 4)
  | [], _ => []

/-- `strecher` (electrum_v1.cpp:212-222). -/
def strecher (H : Bytes → Bytes) (seed : Bytes) : Bytes := (List.range 100000).foldl (fun s _ => H (s ++ seed)) seed

end Verif.Mnemonic
