import Verif.Lemmas.Spend3
import Verif.Lemmas.Ecdsa
import Verif.Props.Sighash
import Verif.Spec.Taproot
/-!
# Taproot outputs
-/
namespace Verif
open Verif.Machine (Env Val Err Res St Rel Within Small opcodeFromSize)
open Verif.Spec Verif.Spec.Script

/-! ### The output -/

def p2trOps (p : Bytes) : List Op := [{ code := 81 }, po p]

theorem p2tr_data {p : Bytes} (hp : p.length = 32) : OpsOK (p2trOps p) ∧ opsData (p2trOps p) = p2tr p := by
  have h1 : ∀ o ∈ p2trOps p, o.Consistent := by
    intro o ho
    simp only [p2trOps, List.mem_cons, List.not_mem_nil, or_false] at ho
    rcases ho with rfl | rfl
    · exact plain_consistent _ (by decide)
    · exact (po_spec (by omega)).1
  refine ⟨Machine.opsOK_of _ h1, ?_⟩
  have : pushBytes p = UInt8.ofNat p.length :: p := by
    unfold pushBytes; dsimp only; rw [if_pos (by omega)]; rfl
  simp only [p2trOps, opsData, List.flatMap_cons, List.flatMap_nil, List.append_nil, (po_spec (d := p) (by omega)).2, this, hp]
  rfl

theorem p2tr_program {p : Bytes} (hp : p.length = 32) : program? (p2tr p) = some (1, p) := by
  rw [program?_iff]
  exact ⟨by omega, by omega, 81, by rw [hp]; rfl, .inr ⟨by omega, by omega, rfl⟩⟩

theorem p2tr_not_p2sh {p : Bytes} : ¬ IsP2SH (p2tr p) := by
  rintro ⟨h', _, he⟩
  simp [p2tr] at he

theorem eval_p2tr {s : Spend} {p : Bytes} (hp : p.length = 32) : eval (s.legacyEnv (p2trOps p)) (start [] 0) = .done (start [p, [1]] 0) := by
  rw [eval_steps (e := s.legacyEnv (p2trOps p)) rfl legacy_witness_ok (by
    show (opsData (p2trOps p)).length ≤ _
    rw [(p2tr_data hp).2]
    simp only [p2tr, List.length_append, List.length_cons, List.length_nil]; omega)]
  have := steps_pushes (e := s.legacyEnv (p2trOps p)) rfl (ops := p2trOps p) (ds := [[1], p])
    (.cons (small_pushes (k := 1) (by omega) (by omega)) (.cons (po_pushes (by omega)) .nil)) 0 (start [] 0) rfl (by decide) (by decide)
  rw [if_neg (by simp [start])] at this
  show (match steps (s.legacyEnv (p2trOps p)) 0 (p2trOps p) (start [] 0) with | none => _ | some t' => _) = _
  rw [this]
  rfl

/-- A version 1 output: the input script must be empty and the witness spends the program. -/
theorem verify_p2tr {s : Spend} (hs : s.OK) (h141 : s.flags.bip141 = true) (h341 : s.flags.bip341 = true) {p : Bytes} (hp : p.length = 32)
    (ho : opsData s.prevout = p2tr p) : verify s = true ↔ opsData s.ops = [] ∧ truthy p = true ∧ taproot s p = true := by
  have hpre : s.prevout = p2trOps p := opsOK_injective hs.prevout (p2tr_data hp).1 hs.prevoutSize (ho.trans (p2tr_data hp).2.symm)
  by_cases hi : opsData s.ops = []
  · have hops : s.ops = [] := opsOK_injective hs.ops .nil hs.opsSize (by rw [hi]; rfl)
    unfold verify
    rw [hops, eval_nil]
    simp only
    rw [hpre, show (start ([] : List Bytes) 0).stack = [] from rfl, eval_p2tr hp]
    simp only
    rw [if_neg (fun h => p2tr_not_p2sh (ho ▸ hpre ▸ h.2)), h141, if_pos rfl, (p2tr_data hp).2, p2tr_program hp]
    simp only [program, h341, Bool.and_eq_true, decide_eq_true_eq]
    rw [if_neg (by decide), if_pos ⟨trivial, trivial, trivial⟩]
    constructor
    · rintro ⟨h1, h2, h3⟩; exact ⟨h2, h1, h3⟩
    · rintro ⟨h1, h2, h3⟩; exact ⟨h2, h1, h3⟩
  · constructor
    · intro hv
      exfalso
      unfold verify at hv
      rw [h141, if_pos rfl, ho, p2tr_program hp] at hv
      split at hv
      · split at hv
        · rw [if_neg (fun h => p2tr_not_p2sh h.2)] at hv
          simp [hi] at hv
        · cases hv
      · cases hv
    · exact fun h => absurd h.1 hi

theorem connect_p2tr {s : Spend} (hs : s.OK) (h141 : s.flags.bip141 = true) (h341 : s.flags.bip341 = true) {p : Bytes} (hp : p.length = 32)
    (ho : opsData s.prevout = p2tr p) : connect s = some none ↔ opsData s.ops = [] ∧ truthy p = true ∧ taproot s p = true := by
  rw [← verify_p2tr hs h141 h341 hp ho]
  constructor
  · exact C52_accepted_is_valid s hs
  · intro hv
    have hi := ((verify_p2tr hs h141 h341 hp ho).1 hv).1
    have hops : s.ops = [] := opsOK_injective hs.ops .nil hs.opsSize (by rw [hi]; rfl)
    have hpre : s.prevout = p2trOps p := opsOK_injective hs.prevout (p2tr_data hp).1 hs.prevoutSize (ho.trans (p2tr_data hp).2.symm)
    refine (C52_exact_ordinary s hs ⟨(by rw [hops]; intro o ho; cases ho), ?_, ?_, ?_⟩).2 hv
    · rw [hpre]
      intro o ho
      simp only [p2trOps, List.dropLast_cons₂, List.dropLast_singleton, List.mem_singleton] at ho
      subst ho
      decide
    · rintro r ⟨_, h2, _⟩
      rw [ho] at h2
      exact absurd h2 p2tr_not_p2sh
    · rintro script q w (rfl | ⟨_, h2, _⟩) hw _ _
      · rw [ho] at hw
        have := p2tr_program hp
        rw [(program?_iff _ _ _).2 hw] at this
        cases this
      · rw [ho] at h2
        exact absurd h2 p2tr_not_p2sh

/-! ### Trees -/

theorem tapRoot_append (s : Spend) (leaf : Bytes) (a b : List Bytes) : tapRoot s leaf (a ++ b) = tapRoot s (tapRoot s leaf a) b := by
  unfold tapRoot; rw [List.foldl_append]

/-- The hash of an unordered pair. -/
def pairHash (s : Spend) (h k : Bytes) : Bytes := if h < k then s.branchHash h k else s.branchHash k h

theorem bytes_lt_cases (a b : Bytes) : (a < b ∧ ¬ b < a) ∨ a = b ∨ (b < a ∧ ¬ a < b) := by
  by_cases h1 : a < b
  · exact .inl ⟨h1, List.lt_asymm h1⟩
  · by_cases h2 : b < a
    · exact .inr (.inr ⟨h2, h1⟩)
    · exact .inr (.inl (List.le_antisymm h2 h1))

theorem pairHash_comm (s : Spend) (a b : Bytes) : pairHash s a b = pairHash s b a := by
  unfold pairHash
  rcases bytes_lt_cases a b with ⟨h, h'⟩ | h | ⟨h, h'⟩
  · rw [if_pos h, if_neg h']
  · rw [h]
  · rw [if_neg h', if_pos h]

theorem tapRoot_snoc (s : Spend) (leaf : Bytes) (a : List Bytes) (k : Bytes) : tapRoot s leaf (a ++ [k]) = pairHash s (tapRoot s leaf a) k := by
  rw [tapRoot_append]; rfl

theorem root_node (s : Spend) (l r : TapTree) : (TapTree.node l r).root s = pairHash s (l.root s) (r.root s) := rfl

/-- Every leaf of a tree leads to its root. -/
theorem leaves_root (s : Spend) : ∀ t : TapTree, ∀ x ∈ t.leaves s, tapRoot s (leafOf s x.1 x.2.1) x.2.2 = t.root s
  | .leaf v c, x, hx => by
    simp only [TapTree.leaves, List.mem_singleton] at hx
    subst hx
    rfl
  | .node l r, x, hx => by
    simp only [TapTree.leaves, List.mem_append, List.mem_map] at hx
    rcases hx with ⟨y, hy, rfl⟩ | ⟨y, hy, rfl⟩
    · dsimp only
      rw [tapRoot_snoc, leaves_root s l y hy, root_node]
    · dsimp only
      rw [tapRoot_snoc, leaves_root s r y hy, root_node, pairHash_comm]

/-- The hashes used have 32 bytes. -/
structure Spend.Tap (s : Spend) : Prop where
  leaf : ∀ v m, (s.leafHash v m).length = 32
  branch : ∀ a b, (s.branchHash a b).length = 32
  tweak : ∀ a b, (s.tweakHash a b).length = 32

theorem root_length {s : Spend} (h : s.Tap) (t : TapTree) : (t.root s).length = 32 := by
  cases t with
  | leaf v c => exact h.leaf _ _
  | node l r => rw [root_node]; unfold pairHash; split <;> exact h.branch _ _

theorem tapRoot_length {s : Spend} (h : s.Tap) {leaf : Bytes} (hl : leaf.length = 32) (ks : List Bytes) : (tapRoot s leaf ks).length = 32 := by
  rcases List.eq_nil_or_concat ks with rfl | ⟨l, k, rfl⟩
  · exact hl
  · rw [List.concat_eq_append, tapRoot_snoc]; unfold pairHash; split <;> exact h.branch _ _

theorem leaves_length {s : Spend} (h : s.Tap) : ∀ t : TapTree, ∀ x ∈ t.leaves s, ∀ k ∈ x.2.2, k.length = 32
  | .leaf v c, x, hx => by
    simp only [TapTree.leaves, List.mem_singleton] at hx
    subst hx
    simp
  | .node l r, x, hx => by
    simp only [TapTree.leaves, List.mem_append, List.mem_map] at hx
    rcases hx with ⟨y, hy, rfl⟩ | ⟨y, hy, rfl⟩
    · intro k hk
      rcases List.mem_append.1 hk with hk | hk
      · exact leaves_length h l y hy k hk
      · rw [List.mem_singleton.1 hk]; exact root_length h r
    · intro k hk
      rcases List.mem_append.1 hk with hk | hk
      · exact leaves_length h r y hy k hk
      · rw [List.mem_singleton.1 hk]; exact root_length h l

theorem pairHash_inj {s : Spend} {a b c d : Bytes} (ha : a.length = 32) (hb : b.length = 32) (hc : c.length = 32) (hd : d.length = 32)
    (h : pairHash s a b = pairHash s c d) : (a = c ∧ b = d) ∨ (a = d ∧ b = c) ∨ TapCollision s := by
  have key : ∀ a b c d : Bytes, a.length = 32 → b.length = 32 → c.length = 32 → d.length = 32 → s.branchHash a b = s.branchHash c d →
      (a = c ∧ b = d) ∨ TapCollision s := by
    intro a b c d h1 h2 h3 h4 h
    by_cases e : (a, b) = (c, d)
    · exact .inl (Prod.mk.inj e)
    · exact .inr (.inl ⟨a, b, c, d, h1, h2, h3, h4, e, h⟩)
  unfold pairHash at h
  split at h <;> split at h
  · rcases key _ _ _ _ ha hb hc hd h with h | h
    · exact .inl h
    · exact .inr (.inr h)
  · rcases key _ _ _ _ ha hb hd hc h with h | h
    · exact .inr (.inl h)
    · exact .inr (.inr h)
  · rcases key _ _ _ _ hb ha hc hd h with h | h
    · exact .inr (.inl ⟨h.2, h.1⟩)
    · exact .inr (.inr h)
  · rcases key _ _ _ _ hb ha hd hc h with h | h
    · exact .inl ⟨h.2, h.1⟩
    · exact .inr (.inr h)

/-- What leads to the root of a tree is one of its leaves, with the siblings on its way, or there is a collision. -/
theorem root_leaves {s : Spend} (h : s.Tap) : ∀ (t : TapTree) (v : UInt8) (c : Bytes) (ks : List Bytes), (∀ k ∈ ks, k.length = 32) → c.length < 2 ^ 63 →
    (∀ x ∈ t.leaves s, x.2.1.length < 2 ^ 63) →
    tapRoot s (leafOf s v c) ks = t.root s → (v, c, ks) ∈ t.leaves s ∨ TapCollision s := by
  intro t
  induction t with
  | leaf w d =>
    intro v c ks hk hc hd hr
    rcases List.eq_nil_or_concat ks with rfl | ⟨l, k, rfl⟩
    · have hr : s.leafHash v (writeVariable c.length ++ c) = s.leafHash w (writeVariable d.length ++ d) := hr
      by_cases e : (v, writeVariable c.length ++ c) = (w, writeVariable d.length ++ d)
      · obtain ⟨rfl, e'⟩ := Prod.mk.inj e
        have hd := hd (v, d, []) (by simp [TapTree.leaves])
        have hd : d.length < 2 ^ 63 := hd
        obtain ⟨_, rfl⟩ := Sighash.writeVariable_prefix (a := c.length) (b := d.length) (by omega) (by omega) e'
        exact .inl (by simp [TapTree.leaves])
      · exact .inr (.inr (.inl ⟨_, _, _, _, e, hr⟩))
    · rw [List.concat_eq_append] at hr hk
      rw [tapRoot_snoc] at hr
      have hl := tapRoot_length h (h.leaf v (writeVariable c.length ++ c)) l
      have hk := hk k (by simp)
      have hr : pairHash s (tapRoot s (s.leafHash v (writeVariable c.length ++ c)) l) k = s.leafHash w (writeVariable d.length ++ d) := hr
      unfold pairHash at hr
      split at hr
      · exact .inr (.inr (.inr (.inl ⟨_, _, _, _, hl, hk, hr.symm⟩)))
      · exact .inr (.inr (.inr (.inl ⟨_, _, _, _, hk, hl, hr.symm⟩)))
  | node l r ihl ihr =>
    intro v c ks hk hc hd hr
    rw [root_node] at hr
    rcases List.eq_nil_or_concat ks with rfl | ⟨ks, k, rfl⟩
    · have hr : s.leafHash v (writeVariable c.length ++ c) = pairHash s (l.root s) (r.root s) := hr
      unfold pairHash at hr
      split at hr
      · exact .inr (.inr (.inr (.inl ⟨_, _, _, _, root_length h _, root_length h _, hr⟩)))
      · exact .inr (.inr (.inr (.inl ⟨_, _, _, _, root_length h _, root_length h _, hr⟩)))
    · rw [List.concat_eq_append] at hr hk ⊢
      rw [tapRoot_snoc] at hr
      have hks : ∀ k ∈ ks, k.length = 32 := fun k hm => hk k (by simp [hm])
      rcases pairHash_inj (tapRoot_length h (h.leaf _ _) ks) (hk k (by simp)) (root_length h l) (root_length h r) hr with ⟨h1, h2⟩ | ⟨h1, h2⟩ | h1
      · rcases ihl v c ks hks hc (fun x hx => hd (x.1, x.2.1, x.2.2 ++ [r.root s]) (by
          simp only [TapTree.leaves, List.mem_append, List.mem_map]; exact .inl ⟨x, hx, rfl⟩)) h1 with hm | hm
        · left
          simp only [TapTree.leaves, List.mem_append, List.mem_map]
          exact .inl ⟨_, hm, by rw [h2]⟩
        · exact .inr hm
      · rcases ihr v c ks hks hc (fun x hx => hd (x.1, x.2.1, x.2.2 ++ [l.root s]) (by
          simp only [TapTree.leaves, List.mem_append, List.mem_map]; exact .inr ⟨x, hx, rfl⟩)) h1 with hm | hm
        · left
          simp only [TapTree.leaves, List.mem_append, List.mem_map]
          exact .inr ⟨_, hm, by rw [h2]⟩
        · exact .inr hm
      · exact .inr h1

/-! ### Control blocks -/

theorem path_flatten : ∀ ks : List Bytes, (∀ k ∈ ks, k.length = 32) → path ks.length ks.flatten = ks
  | [], _ => rfl
  | k :: ks, h => by
    have hk := h k (by simp)
    simp only [List.length_cons, path, List.flatten_cons]
    rw [List.take_left' hk, List.drop_left' hk, path_flatten ks (fun x hx => h x (by simp [hx]))]

theorem path_lengths : ∀ (n : Nat) (b : Bytes), b.length = 32 * n → ∀ k ∈ path n b, k.length = 32
  | 0, _, _, k, hk => by cases hk
  | n + 1, b, hb, k, hk => by
    simp only [path, List.mem_cons] at hk
    rcases hk with rfl | hk
    · rw [List.length_take]; omega
    · exact path_lengths n _ (by rw [List.length_drop]; omega) k hk

theorem flatten_length : ∀ ks : List Bytes, (∀ k ∈ ks, k.length = 32) → ks.flatten.length = 32 * ks.length
  | [], _ => rfl
  | k :: ks, h => by
    have hk := h k (by simp)
    rw [List.flatten_cons, List.length_append, hk, flatten_length ks (fun x hx => h x (by simp [hx])), List.length_cons]
    omega

theorem version_parity : ∀ v : UInt8, v &&& 1 = 0 → ∀ odd : Bool,
    (v ||| (if odd then 1 else 0)) &&& 0xfe = v ∧ ((v ||| (if odd then 1 else 0)) &&& 1 != 0) = odd := by
  have : ∀ n < 256, (UInt8.ofNat n) &&& 1 = 0 → ∀ odd : Bool,
    ((UInt8.ofNat n) ||| (if odd then 1 else 0)) &&& 0xfe = (UInt8.ofNat n) ∧ (((UInt8.ofNat n) ||| (if odd then 1 else 0)) &&& 1 != 0) = odd := by
    decide +kernel
  intro v
  have h := this v.toNat v.toNat_lt
  rwa [UInt8.ofNat_toNat] at h

end Verif
