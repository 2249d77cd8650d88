import Verif.Spec.Secp
import Verif.Spec.Connect
/-!
# BIP340 and BIP341

Schnorr signatures over the group of the curve, what is assumed of the functions of libsecp256k1 for them (it is not in the repository), and
script trees.
-/
namespace Verif
variable {P : Type} [AddCommGroup P]

/-- BIP340 verification of a 64 byte signature `r ‖ s` for the point `q` with even y, of which `pk` is the x coordinate: with
`e` the challenge, `R = s G - e q` is not zero, has an even y and the x coordinate `r`. -/
def Bip340 (C : Curve P) (xonly : P → Bytes) (odd : P → Bool) (challenge : Bytes → Nat) (q : P) (m sig : Bytes) : Prop :=
  ∃ (r : Bytes) (s : Nat) (R : P), sig = r ++ beBytes 32 s ∧ s < C.order ∧
    R + challenge (r ++ xonly q ++ m) • q = s • C.generator ∧ R ≠ 0 ∧ odd R = false ∧ xonly R = r

/-- BIP340 signing by the secret `d` with some nonce `k`: both are negated if their points have an odd y. -/
def Bip340Signs (C : Curve P) (xonly : P → Bytes) (odd : P → Bool) (challenge : Bytes → Nat) (d : Nat) (m sig : Bytes) : Prop :=
  ∃ k, 0 < k ∧ k < C.order ∧
    let r := xonly (k • C.generator)
    let k' := if odd (k • C.generator) then C.order - k else k
    let d' := if odd (d • C.generator) then C.order - d else d
    sig = r ++ beBytes 32 ((k' + challenge (r ++ xonly (d • C.generator) ++ m) * d') % C.order)

/-- The x-only keys and Schnorr signatures of libsecp256k1. -/
structure Schnorr (C : Curve P) where
  /-- the x coordinate of a point, 32 bytes -/
  xonly : P → Bytes
  /-- whether the y coordinate of a point is odd -/
  odd : P → Bool
  /-- `secp256k1_xonly_pubkey_parse`: the point with this x coordinate and an even y -/
  lift : Bytes → Option P
  xonly_length : ∀ p, (xonly p).length = 32
  xonly_neg : ∀ p, xonly (-p) = xonly p
  odd_neg : ∀ p, p ≠ 0 → odd (-p) = !odd p
  lift_xonly : ∀ p, p ≠ 0 → lift (xonly p) = some (if odd p then -p else p)
  lift_some : ∀ b p, lift b = some p → p ≠ 0 ∧ odd p = false ∧ xonly p = b
  /-- the number of the hash tagged "BIP0340/challenge" -/
  challenge : Bytes → Nat
  /-- `secp256k1_keypair_create` and `secp256k1_schnorrsig_sign32` of a secret, a digest and auxiliary bytes -/
  sign : Bytes → Bytes → Bytes → Option Bytes
  sign_valid : ∀ s m a, 0 < beNat s → beNat s < C.order → ∃ sig, sign s m a = some sig ∧ Bip340Signs C xonly odd challenge (beNat s) m sig
  sign_invalid : ∀ s m a, ¬ (0 < beNat s ∧ beNat s < C.order) → sign s m a = none
  /-- `secp256k1_schnorrsig_verify` of a parsed key, a digest and 64 bytes -/
  verify : P → Bytes → Bytes → Bool
  verify_iff : ∀ q m sig, sig.length = 64 → (verify q m sig = true ↔ Bip340 C xonly odd challenge q m sig)
  /-- `secp256k1_xonly_pubkey_tweak_add_check` of a parsed key, a tweak, 32 bytes and a parity -/
  tweakCheck : P → Bytes → Bytes → Bool → Bool
  tweak_iff : ∀ q t out par, tweakCheck q t out par = true ↔
    beNat t < C.order ∧ q + beNat t • C.generator ≠ 0 ∧ xonly (q + beNat t • C.generator) = out ∧ odd (q + beNat t • C.generator) = par

namespace Spec

/-- 1 p -/
def p2tr (p : Bytes) : Bytes := [0x51, 0x20] ++ p

/-- A script tree (BIP341): leaf versions and scripts. -/
inductive TapTree
  | leaf (version : UInt8) (script : Bytes)
  | node (left right : TapTree)

/-- The hash of a leaf: version, length of the script, script. -/
def leafOf (s : Spend) (version : UInt8) (script : Bytes) : Bytes := s.leafHash version (writeVariable script.length ++ script)

/-- The hash of a tree: pairs are hashed in lexicographic order. -/
def TapTree.root (s : Spend) : TapTree → Bytes
  | .leaf v c => leafOf s v c
  | .node l r => if l.root s < r.root s then s.branchHash (l.root s) (r.root s) else s.branchHash (r.root s) (l.root s)

/-- The leaves of a tree, each with the hashes of the siblings on the way to the root. -/
def TapTree.leaves (s : Spend) : TapTree → List (UInt8 × Bytes × List Bytes)
  | .leaf v c => [(v, c, [])]
  | .node l r => ((l.leaves s).map fun x => (x.1, x.2.1, x.2.2 ++ [r.root s])) ++ ((r.leaves s).map fun x => (x.1, x.2.1, x.2.2 ++ [l.root s]))

/-- The control block: leaf version with the parity of the output key, internal key, siblings. -/
def controlBlock (version : UInt8) (odd : Bool) (key : Bytes) (siblings : List Bytes) : Bytes :=
  (version ||| (if odd then 1 else 0)) :: (key ++ siblings.flatten)

/-- BIP341: the hash of a leaf, `hash_TapLeaf(v || compact_size(size of script) || script)`; `tagged` is the tagged hash of BIP340. -/
def bip341Leaf (tagged : Bytes → Bytes → Bytes) (version : UInt8) (script : Bytes) : Bytes :=
  tagged "TapLeaf".toUTF8.data.toList ([version] ++ writeVariable script.length ++ script)

/-- BIP341: the root from a leaf and the siblings on the way, `hash_TapBranch` of each pair in order. -/
def bip341Root (tagged : Bytes → Bytes → Bytes) : Bytes → List Bytes → Bytes
  | k, [] => k
  | k, e :: es => bip341Root tagged (tagged "TapBranch".toUTF8.data.toList (if k < e then k ++ e else e ++ k)) es

/-- BIP341: the 32 bytes of an output key are those of `P + hash_TapTweak(p || root) G`, for the point `P` with x coordinate `p` and even y, and
the parity is that of its y. -/
def Bip341Commits {C : Curve P} (X : Schnorr C) (tagged : Bytes → Bytes → Bytes) (internal root out : Bytes) (odd : Bool) : Prop :=
  ∃ (i q : P) (t : Nat), X.lift internal = some i ∧ t = beNat (tagged "TapTweak".toUTF8.data.toList (internal ++ root)) ∧ t < C.order ∧
    q = i + t • C.generator ∧ q ≠ 0 ∧ X.xonly q = out ∧ X.odd q = odd

/-- Two different arguments of the hashes of a tree that have one hash. Arguments other than scripts have 32 bytes. -/
def TapCollision (s : Spend) : Prop :=
  (∃ a b c d : Bytes, a.length = 32 ∧ b.length = 32 ∧ c.length = 32 ∧ d.length = 32 ∧ (a, b) ≠ (c, d) ∧ s.branchHash a b = s.branchHash c d) ∨
  (∃ (v w : UInt8) (m n : Bytes), (v, m) ≠ (w, n) ∧ s.leafHash v m = s.leafHash w n) ∨
  (∃ (v : UInt8) (m a b : Bytes), a.length = 32 ∧ b.length = 32 ∧ s.leafHash v m = s.branchHash a b) ∨
  (∃ k r r' : Bytes, k.length = 32 ∧ r.length = 32 ∧ r'.length = 32 ∧ r ≠ r' ∧ s.tweakHash k r = s.tweakHash k r')

end Spec
end Verif
