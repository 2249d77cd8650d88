import Verif.Lemmas.Taproot
import Verif.Lemmas.ToySchnorr
import Verif.Model.Schnorr
import Verif.Model.Secp
import Verif.Props.Sign
/-!
# C84: taproot outputs are spent by a signature of the output key or by a script of the tree
-/
namespace Verif
open Verif.Machine (Env Val Err Res St Rel Within Small opcodeFromSize)
open Verif.Spec Verif.Spec.Script
variable {P : Type} [AddCommGroup P] {C : Curve P} (X : Schnorr C)

/-! ### Schnorr signatures -/

/-- Verification is that of BIP340, for a key that is an x coordinate. -/
theorem C84_schnorr_exact (key hash sig : Bytes) (hs : sig.length = 64) :
    Schnorr.verifySignature X key hash sig = true ↔
      ∃ q, X.lift key = some q ∧ Bip340 C X.xonly X.odd X.challenge q hash sig := by
  unfold Schnorr.verifySignature
  cases hq : X.lift key with
  | none =>
    simp
  | some q =>
    have hl : key.length = 32 := by rw [← (X.lift_some key q hq).2.2]; exact X.xonly_length q
    rw [if_neg (by simp [hl])]
    dsimp only
    rw [X.verify_iff q hash sig hs]
    exact ⟨fun h => ⟨q, rfl, h⟩, fun ⟨q', h1, h2⟩ => by cases h1; exact h2⟩

theorem smul_secret_ne {d : Nat} (h0 : 0 < d) (h1 : d < C.order) : d • C.generator ≠ 0 := by
  intro hz
  have := Nat.le_of_dvd h0 ((C.cyclic _).1 hz)
  omega

theorem neg_smul_order {d : Nat} (h1 : d < C.order) (p : P) : (C.order - d) • p = -(d • p) := by
  apply C.smul_neg_of
  rw [Nat.sub_add_cancel (by omega)]
  exact Nat.modEq_zero_iff_dvd.2 (Nat.dvd_refl _)

/-- A valid secret signs every digest, and what it makes has 64 bytes and verifies with the x coordinate of its public key; an
invalid secret signs nothing. -/
theorem C84_schnorr_signs (secret hash aux : Bytes) :
    (Ec.verifySecret C secret = true → ∃ sig, Schnorr.signHash X secret hash aux = some sig ∧ sig.length = 64 ∧
      Schnorr.verifySignature X (X.xonly (beNat secret • C.generator)) hash sig = true) ∧
    (Ec.verifySecret C secret = false → Schnorr.signHash X secret hash aux = none) := by
  constructor
  · intro h
    simp only [Ec.verifySecret, Bool.and_eq_true, decide_eq_true_eq] at h
    obtain ⟨sig, h1, k, hk0, hk1, hsig⟩ := X.sign_valid secret hash aux h.1 h.2
    dsimp only at hsig
    generalize beNat secret = d at *
    have hd := smul_secret_ne (C := C) h.1 h.2
    have hk := smul_secret_ne (C := C) hk0 hk1
    have hl : sig.length = 64 := by rw [hsig]; simp [X.xonly_length]
    refine ⟨sig, h1, hl, ?_⟩
    rw [C84_schnorr_exact X _ _ _ hl]
    refine ⟨_, X.lift_xonly _ hd, X.xonly (k • C.generator), _, if X.odd (k • C.generator) then -(k • C.generator) else k • C.generator, hsig,
      Nat.mod_lt _ C.prime.pos, ?_, ?_, ?_, ?_⟩
    · have e1 : X.xonly (if X.odd (d • C.generator) then -(d • C.generator) else d • C.generator) = X.xonly (d • C.generator) := by
        split
        · exact X.xonly_neg _
        · rfl
      rw [e1]
      generalize X.challenge (X.xonly (k • C.generator) ++ X.xonly (d • C.generator) ++ hash) = e
      rw [C.smul_mod, add_nsmul, mul_nsmul']
      have f1 : (if X.odd (k • C.generator) then C.order - k else k) • C.generator = if X.odd (k • C.generator) then -(k • C.generator) else k • C.generator := by
        split
        · exact neg_smul_order hk1 _
        · rfl
      have f2 : (if X.odd (d • C.generator) then C.order - d else d) • C.generator = if X.odd (d • C.generator) then -(d • C.generator) else d • C.generator := by
        split
        · exact neg_smul_order h.2 _
        · rfl
      rw [f1, f2]
    · split
      · exact neg_ne_zero.2 hk
      · exact hk
    · split
      · rename_i ho
        rw [X.odd_neg _ hk, ho]; rfl
      · rename_i ho
        simpa using ho
    · split
      · exact X.xonly_neg _
      · rfl
  · intro h
    apply X.sign_invalid
    simpa [Ec.verifySecret] using h

/-! ### Key path -/

/-- `sig` is a Schnorr signature of `key` in the input (and, in a script, for the leaf): 64 bytes (hash type 0), or 64 bytes and one of the
other hash types. -/
def TapSigned (s : Spend) (leaf : Option Bytes) (key sig : Bytes) : Prop :=
  ∃ rs type hash, rs.length = 64 ∧ (sig = rs ∧ type = 0 ∨ sig = rs ++ [type] ∧ type ∈ ([1, 2, 3, 0x81, 0x82, 0x83] : List UInt8)) ∧
    s.sighashTap leaf 0 type = some hash ∧ s.verifySchnorr key hash rs = true

/-- The signature and its hash type, by size. -/
def tapSized (sig : Bytes) : Option (Bytes × UInt8) :=
  if sig.length = 64 then some (sig, 0)
  else if sig.length = 65 ∧ sig.getLastD 0 ∈ ([1, 2, 3, 0x81, 0x82, 0x83] : List UInt8) then some (sig.take 64, sig.getLastD 0)
  else none

theorem tapSized_iff (sig rs : Bytes) (type : UInt8) :
    tapSized sig = some (rs, type) ↔ rs.length = 64 ∧ (sig = rs ∧ type = 0 ∨ sig = rs ++ [type] ∧ type ∈ ([1, 2, 3, 0x81, 0x82, 0x83] : List UInt8)) := by
  unfold tapSized
  by_cases h64 : sig.length = 64
  · rw [if_pos h64]
    constructor
    · intro h; cases h; exact ⟨h64, .inl ⟨rfl, rfl⟩⟩
    · rintro ⟨hl, ⟨rfl, rfl⟩ | ⟨rfl, _⟩⟩
      · rfl
      · simp [hl] at h64
  · rw [if_neg h64]
    by_cases h65 : sig.length = 65 ∧ sig.getLastD 0 ∈ ([1, 2, 3, 0x81, 0x82, 0x83] : List UInt8)
    · rw [if_pos h65]
      have hsplit : sig = sig.take 64 ++ [sig.getLastD 0] := by
        obtain ⟨l, x, rfl⟩ : ∃ l x, sig = l ++ [x] := by
          rcases List.eq_nil_or_concat sig with h | ⟨l, x, h⟩
          · rw [h] at h65; simp at h65
          · exact ⟨l, x, by rw [h, List.concat_eq_append]⟩
        have hl : l.length = 64 := by have := h65.1; simp at this; exact this
        rw [List.take_left' hl]
        simp [List.getLastD_eq_getLast?]
      constructor
      · intro h
        simp only [Option.some.injEq, Prod.mk.injEq] at h
        obtain ⟨rfl, rfl⟩ := h
        exact ⟨by rw [List.length_take]; omega, .inr ⟨hsplit, h65.2⟩⟩
      · rintro ⟨hl, ⟨rfl, rfl⟩ | ⟨rfl, _⟩⟩
        · omega
        · have e1 : (rs ++ [type]).getLastD 0 = type := by simp [List.getLastD_eq_getLast?]
          rw [e1, List.take_left' hl]
    · rw [if_neg h65]
      constructor
      · intro h; cases h
      · rintro ⟨hl, ⟨rfl, rfl⟩ | ⟨rfl, ht⟩⟩
        · exact absurd hl h64
        · exact absurd ⟨by simp [hl], by simpa [List.getLastD_eq_getLast?] using ht⟩ h65

/-- The shape both checks have. -/
theorem tapCheck_iff (s : Spend) (leaf : Option Bytes) (key sig : Bytes) :
    ((tapSized sig).any fun x => (s.sighashTap leaf 0 x.2).any fun h => s.verifySchnorr key h x.1) = true ↔ TapSigned s leaf key sig := by
  unfold TapSigned
  rw [Option.any_eq_true]
  constructor
  · rintro ⟨⟨rs, type⟩, h1, h2⟩
    rw [Option.any_eq_true] at h2
    obtain ⟨hash, h3, h4⟩ := h2
    obtain ⟨a, b⟩ := (tapSized_iff _ _ _).1 h1
    exact ⟨rs, type, hash, a, b, h3, h4⟩
  · rintro ⟨rs, type, hash, a, b, h3, h4⟩
    exact ⟨(rs, type), (tapSized_iff _ _ _).2 ⟨a, b⟩, (Option.any_eq_true _ _).2 ⟨hash, h3, h4⟩⟩

theorem keyPath_iff (s : Spend) (p sig : Bytes) : keyPath s p sig = true ↔ TapSigned s none p sig := by
  rw [← tapCheck_iff]
  unfold keyPath tapSized
  split_ifs
  · dsimp only [Option.any_some]
    cases s.sighashTap none 0 0 <;> rfl
  · dsimp only [Option.any_some]
    generalize sig.getLastD 0 = f
    cases s.sighashTap none 0 f <;> rfl
  · simp

/-- With one witness element (besides an annex) a taproot output is spent exactly by a signature of the output key. -/
theorem C84_key_path (s : Spend) (hs : s.OK) (h141 : s.flags.bip141 = true) (h341 : s.flags.bip341 = true) (p : Bytes) (hp : p.length = 32)
    (ho : opsData s.prevout = p2tr p) (sig : Bytes) (hw : withoutAnnex s.witness = [sig]) :
    connect s = some none ↔ opsData s.ops = [] ∧ truthy p = true ∧ TapSigned s none p sig := by
  rw [connect_p2tr hs h141 h341 hp ho, ← keyPath_iff]
  unfold taproot
  rw [if_pos hp, hw]
  rfl

/-! ### Script path -/

/-- The script evaluates to true under the rules of BIP342 (or has an operation that makes it succeed), with the witness budget. -/
def TapscriptTrue (s : Spend) (leaf script : Bytes) (args : List Bytes) : Prop :=
  match eval (s.taprootEnv (parseOps script) args (some leaf))
      (start args.reverse (50 + ((writeVariable s.witness.length).length + (s.witness.map fun e => (writeVariable e.length).length + e.length).sum))) with
  | .done t => acceptsClean t.stack = true
  | .reserved => True
  | .fail => False

theorem script_path {s : Spend} (hs : s.OK) (h141 : s.flags.bip141 = true) (h341 : s.flags.bip341 = true) {p : Bytes} (hp : p.length = 32)
    (ho : opsData s.prevout = p2tr p) {args : List Bytes} {script control : Bytes} (hw : withoutAnnex s.witness = args ++ [script, control]) :
    connect s = some none ↔ opsData s.ops = [] ∧ truthy p = true ∧ 33 ≤ control.length ∧ control.length ≤ 33 + 32 * 128 ∧ (control.length - 33) % 32 = 0 ∧
      s.verifyCommitment ((control.drop 1).take 32) (s.tweakHash ((control.drop 1).take 32)
        (tapRoot s (leafOf s (control.headD 0 &&& 0xfe) script) (path ((control.length - 33) / 32) (control.drop 33)))) p (control.headD 0 &&& 1 != 0) = true ∧
      (control.headD 0 &&& 0xfe = 0xc0 → TapscriptTrue s (leafOf s (control.headD 0 &&& 0xfe) script) script args) := by
  rw [connect_p2tr hs h141 h341 hp ho]
  unfold taproot
  rw [if_pos hp, hw, List.reverse_append]
  show _ ∧ _ ∧ _ = true ↔ _
  simp only [List.reverse_cons, List.reverse_nil, List.nil_append, List.singleton_append, List.cons_append, List.reverse_reverse, Bool.and_eq_true, decide_eq_true_eq]
  refine and_congr_right fun _ => and_congr_right fun _ => ?_
  rw [and_assoc, and_assoc]
  refine and_congr_right fun _ => and_congr_right fun _ => and_congr_right fun _ => and_congr_right fun _ => ?_
  by_cases hv : control.headD 0 &&& 0xfe = 0xc0
  · rw [if_pos hv]
    unfold TapscriptTrue leafOf
    constructor
    · intro h _
      split at h
      · rename_i t ht; rw [ht]; exact h
      · rename_i ht; rw [ht]; trivial
      · cases h
    · intro h
      have h := h hv
      split at h
      · rename_i t ht; rw [ht]; exact h
      · rename_i ht; rw [ht]
      · cases h
  · rw [if_neg hv]
    exact ⟨fun _ h => absurd h hv, fun _ => rfl⟩

/-- An output key: the internal key (with x coordinate `key`) tweaked by the hash of the tree. -/
structure TapOutput (s : Spend) (key : Bytes) (tree : TapTree) (q : P) : Prop where
  internal : ∃ i, X.lift key = some i ∧ q = i + beNat (s.tweakHash key (tree.root s)) • C.generator
  small : beNat (s.tweakHash key (tree.root s)) < C.order
  nonzero : q ≠ 0

/-- A script of the tree, with its control block, spends the output exactly if it evaluates to true with the arguments (BIP342 scripts), or always
(other leaf versions). -/
theorem C84_tree_leaf_spends (s : Spend) (hs : s.OK) (ht : s.Tap) (hX : s.verifyCommitment = Schnorr.verifyCommitment X)
    (h141 : s.flags.bip141 = true) (h341 : s.flags.bip341 = true) (key : Bytes) (tree : TapTree) (q : P) (hq : TapOutput X s key tree q)
    (ho : opsData s.prevout = p2tr (X.xonly q)) (version : UInt8) (script : Bytes) (siblings : List Bytes) (hm : (version, script, siblings) ∈ tree.leaves s)
    (he : version &&& 1 = 0) (hd : siblings.length ≤ 128) (args : List Bytes)
    (hw : withoutAnnex s.witness = args ++ [script, controlBlock version (X.odd q) key siblings]) :
    connect s = some none ↔ opsData s.ops = [] ∧ truthy (X.xonly q) = true ∧ (version = 0xc0 → TapscriptTrue s (leafOf s version script) script args) := by
  obtain ⟨i, hi, hqi⟩ := hq.internal
  have hk : key.length = 32 := by rw [← (X.lift_some key i hi).2.2]; exact X.xonly_length i
  have hsl := leaves_length ht tree _ hm
  have hfl := flatten_length siblings hsl
  have hlen : (controlBlock version (X.odd q) key siblings).length = 33 + 32 * siblings.length := by
    unfold controlBlock; rw [List.length_cons, List.length_append, hfl, hk]; omega
  obtain ⟨v1, v2⟩ := version_parity version he (X.odd q)
  have e1 : (controlBlock version (X.odd q) key siblings).headD 0 &&& 0xfe = version := v1
  have e2 : ((controlBlock version (X.odd q) key siblings).headD 0 &&& 1 != 0) = X.odd q := v2
  have e3 : ((controlBlock version (X.odd q) key siblings).drop 1).take 32 = key := by
    unfold controlBlock; rw [List.drop_one, List.tail_cons, List.take_left' hk]
  have e4 : (controlBlock version (X.odd q) key siblings).drop 33 = siblings.flatten := by
    unfold controlBlock
    rw [show 33 = 32 + 1 from rfl, List.drop_succ_cons, List.drop_left' hk]
  rw [script_path hs h141 h341 (X.xonly_length q) ho hw, e1, e2, e3, e4, hlen, show (33 + 32 * siblings.length - 33) / 32 = siblings.length by omega,
    path_flatten siblings hsl, leaves_root s tree _ hm]
  have hc : s.verifyCommitment key (s.tweakHash key (tree.root s)) (X.xonly q) (X.odd q) = true := by
    rw [hX]
    unfold Schnorr.verifyCommitment
    rw [hi]
    dsimp only
    rw [X.tweak_iff, ← hqi]
    exact ⟨hq.small, hq.nonzero, rfl, rfl⟩
  constructor
  · rintro ⟨h1, h2, _, _, _, _, h3⟩; exact ⟨h1, h2, h3⟩
  · rintro ⟨h1, h2, h3⟩; exact ⟨h1, h2, by omega, by omega, by omega, hc, h3⟩

/-- Nothing else: a script path spend with the internal key and the parity of the output uses a leaf of the tree, at its place in the tree,
and the script is satisfied; or two arguments with one hash are at hand. -/
theorem C84_commits (s : Spend) (hs : s.OK) (ht : s.Tap) (hX : s.verifyCommitment = Schnorr.verifyCommitment X)
    (h141 : s.flags.bip141 = true) (h341 : s.flags.bip341 = true) (key : Bytes) (tree : TapTree) (q : P) (hq : TapOutput X s key tree q)
    (htree : ∀ x ∈ tree.leaves s, x.2.1.length < 2 ^ 63)
    (ho : opsData s.prevout = p2tr (X.xonly q)) (args : List Bytes) (script control : Bytes) (hw : withoutAnnex s.witness = args ++ [script, control])
    (hsc : script.length < 2 ^ 63) (hkey : (control.drop 1).take 32 = key) (hpar : (control.headD 0 &&& 1 != 0) = X.odd q)
    (hc : connect s = some none) :
    (∃ siblings, (control.headD 0 &&& 0xfe, script, siblings) ∈ tree.leaves s ∧ control.drop 33 = siblings.flatten ∧
      (control.headD 0 &&& 0xfe = 0xc0 → TapscriptTrue s (leafOf s 0xc0 script) script args)) ∨ TapCollision s := by
  obtain ⟨i, hi, hqi⟩ := hq.internal
  have hk : key.length = 32 := by rw [← (X.lift_some key i hi).2.2]; exact X.xonly_length i
  obtain ⟨_, _, c1, c2, c3, hcm, hev⟩ := (script_path hs h141 h341 (X.xonly_length q) ho hw).1 hc
  rw [hkey, hpar, hX] at hcm
  unfold Schnorr.verifyCommitment at hcm
  rw [hi] at hcm
  dsimp only at hcm
  rw [X.tweak_iff] at hcm
  obtain ⟨t1, t2, t3, t4⟩ := hcm
  have hroot : (tapRoot s (leafOf s (control.headD 0 &&& 0xfe) script) (path ((control.length - 33) / 32) (control.drop 33))).length = 32 :=
    tapRoot_length ht (ht.leaf _ _) _
  generalize hR : tapRoot s (leafOf s (control.headD 0 &&& 0xfe) script) (path ((control.length - 33) / 32) (control.drop 33)) = R at *
  -- the tweaked points are one point
  have hpt : i + beNat (s.tweakHash key R) • C.generator = q := by
    have l1 := X.lift_xonly _ t2
    have l2 := X.lift_xonly _ hq.nonzero
    rw [t3, l2, t4] at l1
    injection l1 with l1
    cases h : X.odd q <;> rw [h] at l1
    · exact l1.symm
    · exact (neg_inj.1 l1).symm
  rw [hqi] at hpt
  have hmod := C.gen_congr (add_left_cancel hpt)
  have hnat : beNat (s.tweakHash key R) = beNat (s.tweakHash key (tree.root s)) := by
    unfold Nat.ModEq at hmod
    rwa [Nat.mod_eq_of_lt t1, Nat.mod_eq_of_lt hq.small] at hmod
  have hbytes : s.tweakHash key R = s.tweakHash key (tree.root s) := Der.beNat_inj (by rw [ht.tweak, ht.tweak]) hnat
  by_cases hr : R = tree.root s
  · rw [← hR] at hr
    have hpl := path_lengths ((control.length - 33) / 32) (control.drop 33) (by rw [List.length_drop]; omega)
    rcases root_leaves ht tree _ _ _ hpl hsc htree hr with hm | hm
    · refine .inl ⟨_, hm, ?_, fun h => by have := hev h; rwa [h] at this⟩
      have : ∀ (n : Nat) (b : Bytes), b.length = 32 * n → b = (path n b).flatten := by
        intro n
        induction n with
        | zero => intro b hb; rw [List.length_eq_zero_iff.1 (by omega : b.length = 0)]; rfl
        | succ n ih =>
          intro b hb
          simp only [path, List.flatten_cons]
          rw [← ih (b.drop 32) (by rw [List.length_drop]; omega), List.take_append_drop]
      exact this _ _ (by rw [List.length_drop]; omega)
    · exact .inr hm
  · exact .inr (.inr (.inr (.inr ⟨key, R, tree.root s, hk, hroot, root_length ht _, hr, hbytes⟩)))

/-- A leaf `<key> CHECKSIG`, the key having 32 bytes, is satisfied exactly by a signature of the key for the leaf. -/
theorem C84_checksig_leaf (s : Spend) (h342 : s.flags.bip342 = true) (leaf key : Bytes) (hk : key.length = 32) (sig : Bytes) :
    TapscriptTrue s leaf ([0x20] ++ key ++ [0xac]) [sig] ↔ TapSigned s (some leaf) key sig := by
  have hpo : ∀ o ∈ [({ code := 32, data := key } : Op), { code := 172 }], o.Consistent := by
    intro o ho
    simp only [List.mem_cons, List.not_mem_nil, or_false] at ho
    rcases ho with rfl | rfl
    · have := direct_consistent key (by omega)
      rw [hk] at this; exact this
    · exact plain_consistent _ (by decide)
  have hdata : opsData [({ code := 32, data := key } : Op), { code := 172 }] = [0x20] ++ key ++ [0xac] := by
    have h1 := (po_spec (d := key) (by omega)).2
    have h2 : (po key) = { code := 32, data := key } := by unfold po opcodeFromSize; rw [hk]; rfl
    rw [h2] at h1
    simp only [opsData, List.flatMap_cons, List.flatMap_nil, List.append_nil, h1]
    unfold pushBytes; rw [hk]; rfl
  have hparse : parseOps ([0x20] ++ key ++ [0xac]) = [{ code := 32, data := key }, { code := 172 }] := by
    rw [← hdata, parseOps_of (Machine.opsOK_of _ hpo)]; rw [hdata]; simp [hk]
  rw [← tapCheck_iff]
  unfold TapscriptTrue
  rw [hparse]
  generalize hb : 50 + ((writeVariable s.witness.length).length + (s.witness.map fun e => (writeVariable e.length).length + e.length).sum) = bud
  have hbud : 50 ≤ bud := by omega
  have hE : ∃ e, e = s.taprootEnv [{ code := 32, data := key }, { code := 172 }] [sig] (some leaf) := ⟨_, rfl⟩
  obtain ⟨e, he⟩ := hE
  have e1 : e.flags.bip342 = true := by rw [he]; exact h342
  have hcs : ∀ t : State, t.sep = 0 → checkSchnorr e sig key t = (tapSized sig).any fun x => (s.sighashTap (some leaf) 0 x.2).any fun h => s.verifySchnorr key h x.1 := by
    intro t ht
    unfold checkSchnorr
    dsimp only
    change (match tapSized sig with | none => false | some (g, flag) => match e.sighashTap t.sep flag with | none => false | some h => e.verifySchnorr key h g) = _
    rw [ht, he]
    cases tapSized sig with
    | none => rfl
    | some x =>
      obtain ⟨g, f⟩ := x
      dsimp only [Option.any_some]
      change (match s.sighashTap (some leaf) 0 f with | none => false | some h => s.verifySchnorr key h g) = _
      cases s.sighashTap (some leaf) 0 f <;> rfl
  rw [← he]
  have s1 : step e 0 { code := 32, data := key } (start [sig].reverse bud) = some { start [sig].reverse bud with stack := [key, sig] } := by
    unfold step counted
    rw [e1]
    simp [hk, disabled, start, execute]
  have s2 : ∀ t : State, t.stack = [key, sig] → t.exec = [] → t.alt = [] → t.sep = 0 → t.budget = bud →
      step e 1 { code := 172 } t = if sig = [] then some { t with stack := [encodeBool false] }
        else if checkSchnorr e sig key { t with stack := [] } = true then some { t with stack := [encodeBool true], budget := t.budget - 50 } else none := by
    intro t t1 t2 t3 t4 t5
    obtain ⟨st, alt, ex, nops, sep, bu⟩ := t
    dsimp only at t1 t2 t3 t4 t5
    subst t1 t2 t3 t4 t5
    have hkne : key ≠ [] := by rintro rfl; simp at hk
    have hx : execute e 1 { code := 172 } ⟨[key, sig], [], [], nops, 0, (bud : Int)⟩ = (checkSig e ⟨[key, sig], [], [], nops, 0, (bud : Int)⟩).bind fun r => some { r.2 with stack := encodeBool r.1 :: r.2.stack } := by
      unfold execute
      rfl
    unfold step counted
    rw [e1]
    simp only [Bool.not_true, Bool.false_and, Bool.false_eq_true, if_false, List.all_nil, Bool.true_or, if_true, hx]
    unfold checkSig
    dsimp only
    rw [e1]
    simp only [if_true]
    unfold checkTap
    rw [if_neg hkne]
    by_cases hs0 : sig = []
    · simp [hs0, disabled]
    · rw [if_neg hs0, if_neg hs0, if_neg (show ¬ ((bud : Int) < 50) by omega)]
      by_cases hc : checkSchnorr e sig key ⟨[], [], [], nops, 0, (bud : Int)⟩ = true
      · rw [if_pos hc]
        simp [disabled, hc]
      · rw [if_neg hc]
        simp [disabled, hk, hc]
  have hev : eval e (start [sig].reverse bud) = if sig.length > 520 then .fail else
      if sig = [] then .done { start [encodeBool false] bud with stack := [encodeBool false] }
      else if checkSchnorr e sig key { start [sig].reverse bud with stack := [] } = true then .done { start [encodeBool true] bud with budget := bud - 50 } else .fail := by
    unfold eval
    have o1 : e.ops = [{ code := 32, data := key }, { code := 172 }] := by rw [he]; rfl
    have o2 : e.witness = some [sig] := by rw [he]; rfl
    rw [e1, o1, o2]
    rw [if_neg (by simp [successCode]), if_neg (by simp [start])]
    by_cases hl : sig.length > 520
    · rw [if_pos hl, if_pos (by simpa using hl)]
    · rw [if_neg hl, if_neg (by simpa using hl), if_neg (by simp)]
      simp only [steps, Option.bind_eq_bind, s1, Option.bind_some]
      rw [s2 _ rfl rfl rfl rfl rfl]
      split_ifs <;> first | rfl | simp_all [start]
  rw [hev, hcs _ rfl]
  generalize hc : ((tapSized sig).any fun x => (s.sighashTap (some leaf) 0 x.2).any fun h => s.verifySchnorr key h x.1) = c
  have hlen : c = true → sig.length ≤ 65 ∧ sig ≠ [] := by
    intro h
    rw [h, Option.any_eq_true] at hc
    obtain ⟨⟨rs, ty⟩, h1, -⟩ := hc
    obtain ⟨hl, ⟨rfl, -⟩ | ⟨rfl, -⟩⟩ := (tapSized_iff _ _ _).1 h1
    · exact ⟨by omega, by rintro rfl; simp at hl⟩
    · exact ⟨by rw [List.length_append, hl]; simp, by simp⟩
  cases c with
  | true =>
    obtain ⟨l1, l2⟩ := hlen rfl
    rw [if_neg (by omega), if_neg l2, if_pos rfl]
    simp [start, acceptsClean, encodeBool, show truthy [1] = true by decide]
  | false =>
    split_ifs <;> simp_all [start, acceptsClean, encodeBool, show truthy [] = false by decide]

/-! ### Signing and spending -/

section
open Verif.Sighash Verif.Sign

/-- The hash a taproot signature covers depends on the input scripts and the witnesses only through the annex. -/
theorem C84_hash_skeleton {H T : Bytes → Bytes} {t u : Tx} {ps : List Prevout} {c d : Cache} (h : SameSkeleton t u) (ht : Warm H t ps c) (hu : Warm H u ps d)
    {i : Nat} {a b : Input} {prev : Prevout} (ha : t.inputs[i]? = some a) (hb : u.inputs[i]? = some b) (hp : ps[i]? = some prev) (h32 : i < 2 ^ 32)
    (hz : ∀ p ∈ ps, p.offset = 0) (hx : Spec.Sighash.annex a.witness.stack = Spec.Sighash.annex b.witness.stack)
    (ops ops' : List Op) (sep : Option Nat) (h1 : ∀ p, sep = some p → p < ops.length) (h2 : ∀ p, sep = some p → p < ops'.length) (leaf : Option Bytes) (f : UInt8) (x y : Bool) :
    (signatureHash H T t ps ⟨i, ops, offsetOf sep, prev.value, leaf, .taproot, f, x, true⟩ c).1 =
      (signatureHash H T u ps ⟨i, ops', offsetOf sep, prev.value, leaf, .taproot, f, y, true⟩ d).1 := by
  unfold signatureHash
  have g : ∀ z : Bool, (z && (Version.taproot == Version.segwit)) = false := by intro z; cases z <;> rfl
  dsimp only
  rw [g, g]
  show Option.map T _ = Option.map T _
  congr 1
  rw [(C39_v1 ht i a prev ha hp h32 hz ops sep h1 leaf f).1, (C39_v1 hu i b prev hb hp h32 hz ops' sep h2 leaf f).1]
  have hg := get_skeleton h.2.2.2 i
  rw [ha, hb] at hg
  simp only [Option.map_some, Option.some.injEq, Prod.mk.injEq] at hg
  have f1 := flatMap_skeleton h.2.2.2 (fun p _ => p.toData)
  have f2 := flatMap_skeleton h.2.2.2 (fun _ s => writeU32 s)
  obtain ⟨e1, e2, e3, -⟩ := h
  unfold Spec.Sighash.bip341
  rw [f1, f2, e1, e2, e3, hx, hg.1, hg.2]

/-- Key path: a Schnorr signature by the secret of the output key, of the hash the library computes for the unsigned transaction, spends the
output. The hash type is 0 (not appended), or one of the others (appended). -/
theorem C84_signed_key_path (L : Ecdsa C) (tagged : Bytes → Bytes → Bytes) (K : Crypto) (flags : Machine.Flags) {t u : Tx} {ps : List Prevout} {c d : Cache} {i : Nat}
    {a inp : Input} {prev : Output} (h : SameSkeleton t u) (ht : Warm K.sha256 t ps c) (hu : Warm K.sha256 u ps d) (h32 : i < 2 ^ 32)
    (ha : t.inputs[i]? = some a) (hna : Spec.Sighash.annex a.witness.stack = none) (hi : u.inputs[i]? = some inp) (hz : ∀ p ∈ ps, p.offset = 0)
    (hp : ps[i]? = some ⟨prev.value, prev.script, 0⟩)
    (hs : (txSpend C L (Schnorr.crypto X tagged K) flags u ps i inp prev d).OK) (h141 : flags.bip141 = true) (h341 : flags.bip341 = true)
    (secret aux rs hash : Bytes) (hsec : Ec.verifySecret C secret = true) (type : UInt8) (ops : List Op) (b143 : Bool)
    (ho : opsData prev.script.ops = p2tr (X.xonly (beNat secret • C.generator))) (htr : truthy (X.xonly (beNat secret • C.generator)) = true)
    (hh : (signatureHash K.sha256 (tagged "TapSighash".toUTF8.data.toList) t ps ⟨i, ops, 0, prev.value, none, .taproot, type, b143, true⟩ c).1 = some hash)
    (hsig : Schnorr.signHash X secret hash aux = some rs) (sig : Bytes)
    (hform : sig = rs ∧ type = 0 ∨ sig = rs ++ [type] ∧ type ∈ ([1, 2, 3, 0x81, 0x82, 0x83] : List UInt8))
    (hsc : opsData inp.script.ops = []) (hw : inp.witness.stack = [sig]) :
    connect (txSpend C L (Schnorr.crypto X tagged K) flags u ps i inp prev d) = some none := by
  obtain ⟨rs', q1, q2, q3⟩ := (C84_schnorr_signs X secret hash aux).1 hsec
  rw [hsig] at q1
  cases q1
  have hwa : withoutAnnex (txSpend C L (Schnorr.crypto X tagged K) flags u ps i inp prev d).witness = [sig] := by
    show withoutAnnex inp.witness.stack = _
    rw [hw]; rfl
  refine (C84_key_path _ hs h141 h341 _ (X.xonly_length _) ho sig hwa).2 ⟨hsc, htr, rs, type, hash, q2, hform, ?_, q3⟩
  have h342 : flags.bip342 = true := hs.tap h341
  show (signatureHash K.sha256 (tagged "TapSighash".toUTF8.data.toList) u ps ⟨i, [{ code := 172 }], 0, prev.value, none, .taproot, type, flags.bip143, flags.bip342⟩ d).1 = _
  rw [h342, ← hh]
  have hx : Spec.Sighash.annex inp.witness.stack = none := by
    rw [hw]
    unfold Spec.Sighash.annex
    split
    · rename_i e; simp at e
    · rfl
  exact (C84_hash_skeleton h ht hu ha hi hp h32 hz (by rw [hna, hx]) ops [{ code := 172 }] none (by simp) (by simp) none type b143 flags.bip143).symm

theorem tapRoot_bip341 {s : Spend} {tagged : Bytes → Bytes → Bytes} (h : ∀ a b, s.branchHash a b = tagged "TapBranch".toUTF8.data.toList (a ++ b)) :
    ∀ (siblings : List Bytes) (leaf : Bytes), tapRoot s leaf siblings = bip341Root tagged leaf siblings
  | [], leaf => rfl
  | e :: es, leaf => by
    show tapRoot s (if leaf < e then s.branchHash leaf e else s.branchHash e leaf) es = _
    rw [tapRoot_bip341 h es, bip341Root, h, h]
    by_cases c : leaf < e <;> simp [c]

/-- Script path of a transaction's input, with the hashes of BIP341 in place: the input spends the output exactly if it has no input script, the
control block has its size, the output key commits to the root that the script and the control block give, and the script is satisfied if it has
the leaf version of BIP342. -/
theorem C84_script_path (L : Ecdsa C) (tagged : Bytes → Bytes → Bytes) (K : Crypto) (flags : Machine.Flags) {t : Tx} {ps : List Prevout} {c : Cache} {i : Nat}
    {inp : Input} {prev : Output} (s : Spend) (hs0 : s = txSpend C L (Schnorr.crypto X tagged K) flags t ps i inp prev c) (hs : s.OK)
    (h141 : flags.bip141 = true) (h341 : flags.bip341 = true) {p : Bytes} (hp : p.length = 32) (ho : opsData prev.script.ops = p2tr p)
    {args : List Bytes} {script internal path : Bytes} {head : UInt8} (hi : internal.length = 32)
    (hw : withoutAnnex inp.witness.stack = args ++ [script, head :: (internal ++ path)]) :
    connect s = some none ↔ opsData inp.script.ops = [] ∧ truthy p = true ∧
      ∃ siblings : List Bytes, siblings.flatten = path ∧ (∀ e ∈ siblings, e.length = 32) ∧ siblings.length ≤ 128 ∧
        Bip341Commits X tagged internal (bip341Root tagged (bip341Leaf tagged (head &&& 0xfe) script) siblings) p (head &&& 1 != 0) ∧
        (head &&& 0xfe = 0xc0 → TapscriptTrue s (bip341Leaf tagged 0xc0 script) script args) := by
  have hb : ∀ a b, s.branchHash a b = tagged "TapBranch".toUTF8.data.toList (a ++ b) := fun a b => by rw [hs0]; rfl
  have hl : ∀ v, leafOf s v script = bip341Leaf tagged v script := fun v => by rw [hs0]; rfl
  have e1 : (head :: (internal ++ path)).headD 0 = head := rfl
  have e2 : ((head :: (internal ++ path)).drop 1).take 32 = internal := by rw [List.drop_one, List.tail_cons, List.take_left' hi]
  have e3 : (head :: (internal ++ path)).drop 33 = path := by
    rw [show 33 = 32 + 1 from rfl, List.drop_succ_cons, List.drop_left' hi]
  have e4 : (head :: (internal ++ path)).length = 33 + path.length := by
    rw [List.length_cons, List.length_append, hi]; omega
  rw [script_path hs (by rw [hs0]; exact h141) (by rw [hs0]; exact h341) hp (by rw [hs0]; exact ho) (args := args) (script := script)
    (control := head :: (internal ++ path)) (by rw [hs0]; exact hw), e1, e2, e3, e4, hl, tapRoot_bip341 hb,
    show 33 + path.length - 33 = path.length by omega]
  have eo : opsData s.ops = opsData inp.script.ops := by rw [hs0]; rfl
  have ev : ∀ r, (s.verifyCommitment internal (s.tweakHash internal r) p (head &&& 1 != 0) = true ↔ Bip341Commits X tagged internal r p (head &&& 1 != 0)) := by
    intro r
    have : s.verifyCommitment internal (s.tweakHash internal r) = Schnorr.verifyCommitment X internal (tagged "TapTweak".toUTF8.data.toList (internal ++ r)) := by
      rw [hs0]; rfl
    rw [this]
    unfold Schnorr.verifyCommitment Bip341Commits
    cases hx : X.lift internal with
    | none => simp
    | some q =>
      dsimp only
      rw [X.tweak_iff]
      constructor
      · rintro ⟨h1, h2, h3, h4⟩; exact ⟨q, _, _, rfl, rfl, h1, rfl, h2, h3, h4⟩
      · rintro ⟨q', _, _, h1, rfl, h2, rfl, h3⟩
        cases h1
        exact ⟨h2, h3⟩
  rw [eo, ev]
  refine and_congr_right fun _ => and_congr_right fun _ => ?_
  have flat : ∀ (n : Nat) (b : Bytes), b.length = 32 * n → (Spec.path n b).flatten = b ∧ (∀ e ∈ Spec.path n b, e.length = 32) ∧ (Spec.path n b).length = n := by
    intro n
    induction n with
    | zero => intro b hb; rw [List.length_eq_zero_iff.1 (by omega : b.length = 0)]; exact ⟨rfl, by simp [Spec.path], rfl⟩
    | succ n ih =>
      intro b hb
      obtain ⟨a1, a2, a3⟩ := ih (b.drop 32) (by rw [List.length_drop]; omega)
      simp only [Spec.path, List.flatten_cons, List.length_cons]
      refine ⟨by rw [a1, List.take_append_drop], ?_, by omega⟩
      intro e he
      rcases List.mem_cons.1 he with rfl | he
      · rw [List.length_take]; omega
      · exact a2 e he
  constructor
  · rintro ⟨h1, h2, h3, h4, h5⟩
    obtain ⟨f1, f2, f3⟩ := flat (path.length / 32) path (by omega)
    refine ⟨_, f1, f2, by omega, h4, fun h => ?_⟩
    have := h5 h
    rwa [h] at this
  · rintro ⟨sib, rfl, h2, h3, h4, h5⟩
    have hf := flatten_length sib h2
    have hpf := path_flatten sib h2
    rw [hf, show 32 * sib.length / 32 = sib.length by omega, hpf]
    exact ⟨by omega, by omega, by omega, h4, fun h => by rw [h]; exact h5 h⟩

/-! ### The hypotheses can be met

With the curve, the ECDSA and the Schnorr signatures of Lemmas/ToySchnorr.lean and simple hash functions. -/

/-- A hash that depends on the size of its argument. -/
def toyTagged (_ : Bytes) (d : Bytes) : Bytes := beBytes 32 (d.length + 2)
noncomputable def toyTapCrypto : Crypto := Schnorr.crypto Toy.schnorr toyTagged toyCrypto
def tapPrev (p : Bytes) : Output := { value := 9, script := Script.ofOps (p2trOps p) }
noncomputable def tapSpend (p : Bytes) (w : List Bytes) : Spend :=
  txSpend Toy.curve Toy.ecdsa toyTapCrypto allFlags (toyTx (toyInput [] w)) [⟨9, Script.ofOps (p2trOps p), 0⟩] 0 (toyInput [] w) (tapPrev p) {}

theorem tapSpend_ok {p : Bytes} (hp : p.length = 32) {w : List Bytes} (hw : ((Witness.ofStack w).toData true).length < 2 ^ 63) : (tapSpend p w).OK where
  ops := Machine.opsOK_of _ (by intro o ho; cases ho)
  opsSize := by show (opsData []).length < _; decide
  prevout := (p2tr_data hp).1
  prevoutSize := by show (opsData (p2trOps p)).length < _; rw [(p2tr_data hp).2]; simp [p2tr, hp]
  witness := hw
  rmd160 := fun _ => rfl
  sha1 := fun _ => rfl
  sha256 := fun _ => rfl
  hash160 := fun _ => rfl
  hash256 := fun _ => rfl
  total := fun v sub f => by cases v <;> rfl
  tap := fun _ => rfl

theorem toy_xonly (k : Nat) (h0 : 0 < k) (h : 2 * k < Toy.prime) : Toy.schnorr.xonly (k • Toy.curve.generator) = beBytes 32 k := by
  show beBytes 32 (Toy.x (k • (1 : ZMod Toy.prime))) = _
  have h1 := Toy.x_small k h0 (by omega)
  have h2 : Toy.x (k • (1 : ZMod Toy.prime)) < Toy.prime := lt_of_le_of_lt (Nat.min_le_left _ _) (ZMod.val_lt _)
  rw [Nat.mod_eq_of_lt h2] at h1
  rw [h1]

theorem toy_odd (k : Nat) (h0 : 0 < k) (h : 2 * k < Toy.prime) : Toy.schnorr.odd (k • Toy.curve.generator) = false := by
  show Toy.odd (k • (1 : ZMod Toy.prime)) = false
  have e : (k • (1 : ZMod Toy.prime)).val = k := by
    rw [nsmul_one]; exact ZMod.val_cast_of_lt (by omega)
  have hne : k • (1 : ZMod Toy.prime) ≠ 0 := by
    intro hz; rw [hz, ZMod.val_zero] at e; omega
  unfold Toy.odd
  rw [(Toy.val_neg hne).1, e]
  exact decide_eq_false (by omega)

/-- The hypotheses of `C84_signed_key_path` are met: the output of the key of `toySecret` is signed and spent. -/
example : ∃ rs, connect (tapSpend (Toy.schnorr.xonly (beNat toySecret • Toy.curve.generator)) [rs ++ [1]]) = some none := by
  obtain ⟨hash, hh⟩ : ∃ hash, (signatureHash toyCrypto.sha256 (toyTagged "TapSighash".toUTF8.data.toList) (toyTx (toyInput [] []))
      [⟨9, Script.ofOps (p2trOps (Toy.schnorr.xonly (beNat toySecret • Toy.curve.generator))), 0⟩] ⟨0, [], 0, 9, none, .taproot, 1, true, true⟩ {}).1 = some hash := ⟨_, rfl⟩
  obtain ⟨rs, h1, h2, -⟩ := (C84_schnorr_signs Toy.schnorr toySecret hash []).1 (by decide)
  refine ⟨rs, ?_⟩
  refine C84_signed_key_path Toy.schnorr Toy.ecdsa toyTagged toyCrypto allFlags (t := toyTx (toyInput [] [])) (c := {}) ⟨rfl, rfl, rfl, rfl⟩ (warm_empty _ _ _) (warm_empty _ _ _)
    (by decide) rfl rfl rfl (by simp) rfl (tapSpend_ok (Toy.schnorr.xonly_length _) ?_) rfl rfl toySecret [] rs hash (by decide) 1 [] true
    (p2tr_data (Toy.schnorr.xonly_length _)).2 ?_ hh h1 _ (.inr ⟨rfl, by decide⟩) rfl rfl
  · simp [Witness.ofStack, Witness.toData, h2, writeVariable]
  · rw [toy_xonly _ (by decide) (by decide)]
    decide

/-- The hypotheses of `C84_tree_leaf_spends` are met: a tree of two scripts over the internal key 7, whose tweak is 66, and whose output key is 73. The first script is OP_1. -/
example : let tree := TapTree.node (.leaf 0xc0 [0x51]) (.leaf 0xc0 [0x6a]);
    let w := [[0x51], controlBlock 0xc0 false (beBytes 32 7) [beBytes 32 5]];
    let s := tapSpend (Toy.schnorr.xonly (73 • Toy.curve.generator)) w;
    TapOutput Toy.schnorr s (beBytes 32 7) tree (73 • Toy.curve.generator) ∧ (0xc0, [0x51], [beBytes 32 5]) ∈ tree.leaves s ∧ connect s = some none := by
  intro tree w s
  have hq : TapOutput Toy.schnorr s (beBytes 32 7) tree (73 • Toy.curve.generator) := by
    have ht : beNat (s.tweakHash (beBytes 32 7) (tree.root s)) = 66 := by decide +kernel
    refine ⟨⟨7 • Toy.curve.generator, ?_, ?_⟩, ?_, ?_⟩
    · have := Toy.schnorr.lift_xonly (7 • Toy.curve.generator) (smul_secret_ne (by decide) (by decide))
      rw [toy_xonly _ (by decide) (by decide), toy_odd _ (by decide) (by decide)] at this
      exact this
    · rw [ht, ← add_nsmul]
    · rw [ht]; decide
    · exact smul_secret_ne (by decide) (by decide)
  have hm : (0xc0, [0x51], [beBytes 32 5]) ∈ tree.leaves s := .head _
  refine ⟨hq, hm, ?_⟩
  have ho : Toy.schnorr.odd (73 • Toy.curve.generator) = false := toy_odd _ (by decide) (by decide)
  refine (C84_tree_leaf_spends Toy.schnorr s (tapSpend_ok (Toy.schnorr.xonly_length _) ?_) ?_ rfl rfl rfl (beBytes 32 7) tree _ hq
    (p2tr_data (Toy.schnorr.xonly_length _)).2 _ _ _ hm (by decide) (by decide) [] ?_).2 ⟨rfl, ?_, fun _ => ?_⟩
  · decide +kernel
  · exact ⟨fun _ _ => by simp [s, tapSpend, txSpend, toyTapCrypto, Schnorr.crypto, toyTagged], fun _ _ => by simp [s, tapSpend, txSpend, toyTapCrypto, Schnorr.crypto, toyTagged],
      fun _ _ => by simp [s, tapSpend, txSpend, toyTapCrypto, Schnorr.crypto, toyTagged]⟩
  · rw [ho]; decide +kernel
  · rw [toy_xonly _ (by decide) (by decide)]; decide
  · unfold TapscriptTrue
    have he : eval (s.taprootEnv (parseOps [0x51]) [] (some (leafOf s 0xc0 [0x51]))) (start ([] : List Bytes).reverse (50 +
        ((writeVariable s.witness.length).length + (s.witness.map fun e => (writeVariable e.length).length + e.length).sum))) =
        .done (start [[1]] (50 + ((writeVariable s.witness.length).length + (s.witness.map fun e => (writeVariable e.length).length + e.length).sum))) := by
      generalize 50 + ((writeVariable s.witness.length).length + (s.witness.map fun e => (writeVariable e.length).length + e.length).sum) = b
      have hp : parseOps [0x51] = [{ code := 81 }] := by decide +kernel
      rw [hp]
      rfl
    rw [he]
    decide

end

end Verif