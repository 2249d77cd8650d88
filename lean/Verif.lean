import Verif.Lemmas.Accumulator
import Verif.Lemmas.Aead
import Verif.Lemmas.Bech32Errors
import Verif.Lemmas.Bech32Field
import Verif.Lemmas.Capture
import Verif.Lemmas.Capture2
import Verif.Lemmas.Capture3
import Verif.Lemmas.Capture4
import Verif.Lemmas.Capture5
import Verif.Lemmas.Catalog
import Verif.Lemmas.Chacha
import Verif.Lemmas.Codec
import Verif.Lemmas.Codec2
import Verif.Lemmas.Compact
import Verif.Lemmas.Connect
import Verif.Lemmas.Ecdsa
import Verif.Lemmas.Lanes
import Verif.Lemmas.Mac
import Verif.Lemmas.Machine
import Verif.Lemmas.Machine2
import Verif.Lemmas.Machine3
import Verif.Lemmas.Machine4
import Verif.Lemmas.Machine5
import Verif.Lemmas.Machine6
import Verif.Lemmas.Machine7
import Verif.Lemmas.Machine8
import Verif.Lemmas.Machine9
import Verif.Lemmas.MachineHom
import Verif.Lemmas.Merkle
import Verif.Lemmas.Native
import Verif.Lemmas.NoMultisig
import Verif.Lemmas.Poly1305
import Verif.Lemmas.PolyState
import Verif.Lemmas.Rmd
import Verif.Lemmas.Script
import Verif.Lemmas.Script2
import Verif.Lemmas.Sha
import Verif.Lemmas.Sha2
import Verif.Lemmas.ShaLawful
import Verif.Lemmas.Sieve
import Verif.Lemmas.Spend
import Verif.Lemmas.Spend2
import Verif.Lemmas.Spend3
import Verif.Lemmas.Stream
import Verif.Lemmas.StreamSafe
import Verif.Lemmas.Taproot
import Verif.Lemmas.ToyCurve
import Verif.Lemmas.ToyEcdsa
import Verif.Lemmas.ToySchnorr
import Verif.Lemmas.Unicode
import Verif.Lemmas.UnicodeCompose
import Verif.Lemmas.UnicodeTables
import Verif.Lemmas.View
import Verif.Lemmas.View2
import Verif.Lemmas.View3
import Verif.Lemmas.View4
import Verif.Lemmas.Words
import Verif.Model.Accumulator
import Verif.Model.Aead
import Verif.Model.Aes
import Verif.Model.Arith
import Verif.Model.ArrayCast
import Verif.Model.Base10
import Verif.Model.Batch
import Verif.Model.Bech32
import Verif.Model.Binary
import Verif.Model.Bip38
import Verif.Model.BitOps
import Verif.Model.BitcoinUri
import Verif.Model.Bits
import Verif.Model.Capture
import Verif.Model.Catalog.Cs
import Verif.Model.Catalog.En
import Verif.Model.Catalog.Es
import Verif.Model.Catalog.Fr
import Verif.Model.Catalog.It
import Verif.Model.Catalog.Ja
import Verif.Model.Catalog.Ko
import Verif.Model.Catalog.MnemonicTree
import Verif.Model.Catalog.Opcodes
import Verif.Model.Catalog.Pt
import Verif.Model.Catalog.Tree
import Verif.Model.Catalog.UnicodeTables
import Verif.Model.Catalog.V1En
import Verif.Model.Catalog.V1Pt
import Verif.Model.Catalog.V1Tree
import Verif.Model.Catalog.ZhHans
import Verif.Model.Catalog.ZhHant
import Verif.Model.Chacha
import Verif.Model.Chain
import Verif.Model.ChainEq
import Verif.Model.ChainState
import Verif.Model.Compact
import Verif.Model.Config
import Verif.Model.Connect
import Verif.Model.Containers
import Verif.Model.Der
import Verif.Model.Dust
import Verif.Model.EcOperators
import Verif.Model.Electrum
import Verif.Model.Endian
import Verif.Model.EndianWide
import Verif.Model.Extract
import Verif.Model.Forms
import Verif.Model.Golomb
import Verif.Model.HashFunctions
import Verif.Model.HdKeys
import Verif.Model.HexReader
import Verif.Model.Identity
import Verif.Model.Image
import Verif.Model.Json
import Verif.Model.Lanes
import Verif.Model.Lists
import Verif.Model.Machine
import Verif.Model.Merkle
import Verif.Model.Message
import Verif.Model.Mnemonic
import Verif.Model.Native
import Verif.Model.Network
import Verif.Model.Number
import Verif.Model.Pack
import Verif.Model.Patterns
import Verif.Model.Points
import Verif.Model.Poly1305
import Verif.Model.Radix
import Verif.Model.Random
import Verif.Model.Registry
import Verif.Model.Ring
import Verif.Model.Rmd
import Verif.Model.Schnorr
import Verif.Model.ScriptText
import Verif.Model.Scrypt
import Verif.Model.Secp
import Verif.Model.Serial
import Verif.Model.Settings
import Verif.Model.Sha
import Verif.Model.Sieve
import Verif.Model.Sighash
import Verif.Model.Sign
import Verif.Model.Siphash
import Verif.Model.Statics
import Verif.Model.Stealth
import Verif.Model.Stream
import Verif.Model.Strings
import Verif.Model.Unicode
import Verif.Model.Utf
import Verif.Model.Validate
import Verif.Model.View
import Verif.Model.Wallet
import Verif.Model.WalletStream
import Verif.Model.Writer
import Verif.Props.Aead
import Verif.Props.Aes
import Verif.Props.Arith
import Verif.Props.ArrayCast
import Verif.Props.Base10
import Verif.Props.Batch
import Verif.Props.Bech32
import Verif.Props.Bech32Errors
import Verif.Props.Binary
import Verif.Props.Bip38
import Verif.Props.Bip38Text
import Verif.Props.BitOps
import Verif.Props.BitcoinUri
import Verif.Props.BitcoinUriValid
import Verif.Props.Bits
import Verif.Props.BlockCommit
import Verif.Props.Capture
import Verif.Props.Chain
import Verif.Props.ChainState
import Verif.Props.Commit
import Verif.Props.Compact
import Verif.Props.Config
import Verif.Props.Containers
import Verif.Props.Der
import Verif.Props.Dust
import Verif.Props.EcOperators
import Verif.Props.Electrum
import Verif.Props.ElectrumV1
import Verif.Props.Endian
import Verif.Props.EndianWide
import Verif.Props.Extract
import Verif.Props.Forms
import Verif.Props.FormsText
import Verif.Props.Golomb
import Verif.Props.Hash
import Verif.Props.HdKeys
import Verif.Props.HexReader
import Verif.Props.Identity
import Verif.Props.Image
import Verif.Props.Json
import Verif.Props.Lanes
import Verif.Props.Ledger
import Verif.Props.Lists
import Verif.Props.Locks
import Verif.Props.Mac
import Verif.Props.Machine
import Verif.Props.Merkle
import Verif.Props.Message
import Verif.Props.Mnemonic
import Verif.Props.Money
import Verif.Props.Native
import Verif.Props.Network
import Verif.Props.NetworkHosts
import Verif.Props.Number
import Verif.Props.Pack
import Verif.Props.Patterns
import Verif.Props.Points
import Verif.Props.Radix
import Verif.Props.Random
import Verif.Props.Reader
import Verif.Props.Registry
import Verif.Props.Ring
import Verif.Props.Script
import Verif.Props.ScriptText
import Verif.Props.Scrypt
import Verif.Props.Serial
import Verif.Props.SerialInfo
import Verif.Props.SerialXml
import Verif.Props.Sieve
import Verif.Props.Sighash
import Verif.Props.Sign
import Verif.Props.Sigops
import Verif.Props.Siphash
import Verif.Props.Spend
import Verif.Props.Statics
import Verif.Props.Stealth
import Verif.Props.Stream
import Verif.Props.Strings
import Verif.Props.Taproot
import Verif.Props.Unicode
import Verif.Props.Utf
import Verif.Props.Validate
import Verif.Props.Verify
import Verif.Props.View
import Verif.Props.Wallet
import Verif.Props.WalletStream
import Verif.Props.WitnessAddress
import Verif.Props.Writer
import Verif.Spec.Aes
import Verif.Spec.Base10
import Verif.Spec.Batch
import Verif.Spec.Bip32
import Verif.Spec.Bip38
import Verif.Spec.Bip39
import Verif.Spec.BitcoinUri
import Verif.Spec.Bits
import Verif.Spec.BlockCommit
import Verif.Spec.Chacha
import Verif.Spec.Chain
import Verif.Spec.ChainState
import Verif.Spec.Commit
import Verif.Spec.Connect
import Verif.Spec.Containers
import Verif.Spec.Der
import Verif.Spec.Ecdsa
import Verif.Spec.Electrum
import Verif.Spec.ElectrumV1
import Verif.Spec.Forms
import Verif.Spec.Golomb
import Verif.Spec.Hash
import Verif.Spec.HexReader
import Verif.Spec.Identity
import Verif.Spec.Image
import Verif.Spec.Ledger
import Verif.Spec.Lists
import Verif.Spec.Locks
import Verif.Spec.Mac
import Verif.Spec.Merkle
import Verif.Spec.Message
import Verif.Spec.Network
import Verif.Spec.Number
import Verif.Spec.Patterns
import Verif.Spec.Radix
import Verif.Spec.Registry
import Verif.Spec.Ring
import Verif.Spec.Script
import Verif.Spec.Scrypt
import Verif.Spec.Secp
import Verif.Spec.Serial
import Verif.Spec.SerialInfo
import Verif.Spec.ShaIsa
import Verif.Spec.Sighash
import Verif.Spec.Siphash
import Verif.Spec.Spend
import Verif.Spec.Taproot
import Verif.Spec.Unicode
import Verif.Spec.Validate
import Verif.Spec.View
import Verif.Spec.Wallet
import Verif.Spec.Words
import Verif.Spec.Writer
