import Verif.Spec.BlockCommit
import Verif.Spec.Identity
import Verif.Props.Commit
import Verif.Props.Sighash
import Verif.Props.Chain
/-!
# C105: the hash of an accepted block commits to the whole block
-/
namespace Verif.BlockCommit
open Verif Verif.Spec Verif.Validate Verif.Validate.Spec Verif.Merkle Verif.Merkle.Spec

/-- A block as it is read from the wire: its parts can be written, the cached sizes are those the readers set. -/
structure Whole (b : Block) : Prop where
  writable : b.Writable
  sized : b.Sized
  length : (b.toData true).length < 2 ^ 63

/-- The hash functions of the code over one digest function: identities are digests of wire forms, a tree node the digest of
its two children. -/
structure Uses (D : Bytes → Hash) (v : Validate.View) : Prop where
  txid : v.txid = Verif.Spec.txid D
  wtxid : v.wtxid = Verif.Spec.wtxid D
  pair : v.pair = fun l r => D (l.bytes ++ r.bytes)

/-! ## Lengths -/

theorem mem_le {α} (f : α → Bytes) (l : List α) (x : α) (hx : x ∈ l) : (f x).length ≤ (l.flatMap f).length := by
  induction l with
  | nil => cases hx
  | cons a l ih =>
    rw [List.flatMap_cons, List.length_append]
    rcases List.mem_cons.mp hx with rfl | hx
    · omega
    · have := ih hx; omega

theorem nominal_le (t : Tx) : (t.toData false).length ≤ (t.toData true).length := by
  simp only [Tx.toData, List.length_append, Bool.false_and, Bool.false_eq_true, if_false, List.length_nil]
  omega

theorem flatMap_le {α} (f g : α → Bytes) (l : List α) (h : ∀ x, (f x).length ≤ (g x).length) : (l.flatMap f).length ≤ (l.flatMap g).length := by
  induction l with
  | nil => simp
  | cons a l ih =>
    rw [List.flatMap_cons, List.flatMap_cons, List.length_append, List.length_append]
    have := h a; omega

theorem block_nominal_le (b : Block) : (b.toData false).length ≤ (b.toData true).length := by
  simp only [Block.toData, List.length_append]
  have := flatMap_le (fun t : Tx => t.toData false) (fun t => t.toData true) b.txs nominal_le
  omega

theorem tx_length {b : Block} (h : Whole b) {t : Tx} (ht : t ∈ b.txs) : (t.toData true).length < 2 ^ 63 := by
  have := mem_le (fun t : Tx => t.toData true) b.txs t ht
  have hl := h.length
  simp only [Block.toData, List.length_append] at hl
  omega

theorem in_length {t : Tx} (hl : (t.toData true).length < 2 ^ 63) {i : Input} (hi : i ∈ t.inputs) : (opsData i.script.ops).length < 2 ^ 63 := by
  have := mem_le Input.toData t.inputs i hi
  simp only [Input.toData, Script.toData, List.length_append] at this
  simp only [Tx.toData, List.length_append] at hl
  omega

theorem out_length {t : Tx} (hl : (t.toData true).length < 2 ^ 63) {o : Output} (ho : o ∈ t.outputs) : (opsData o.script.ops).length < 2 ^ 63 := by
  have := mem_le Output.toData t.outputs o ho
  simp only [Output.toData, Script.toData, List.length_append] at this
  simp only [Tx.toData, List.length_append] at hl
  omega

theorem fit {t : Tx} (h : t.Writable) (hl : (t.toData true).length < 2 ^ 63) : Sighash.Fit t := by
  have hm : maxCount = 1000000 := rfl
  refine ⟨?_, ?_, fun i hi => ⟨(h.inScripts i hi).size, ?_⟩, fun o ho => ⟨(h.outScripts o ho).size, ?_⟩⟩
  · have := h.inCount; omega
  · have := h.outCount; omega
  · rw [(h.inScripts i hi).size]; have := in_length hl hi; omega
  · rw [(h.outScripts o ho).size]; have := out_length hl ho; omega

/-! ## Wire forms -/

theorem same_view {t u : Tx} (ht : Sighash.Fit t) (hu : Sighash.Fit u) (h : t.toData false = u.toData false) :
    Verif.Spec.Sighash.view t = Verif.Spec.Sighash.view u :=
  ((Sighash.wire_view (x := []) (y := []) ht hu).1 (by rw [h])).1

theorem same_inputs {t u : Tx} (ht : Sighash.Fit t) (hu : Sighash.Fit u) (h : t.toData false = u.toData false) :
    t.inputs.map (fun i => keyOf i.point) = u.inputs.map (fun i => keyOf i.point) := by
  have := same_view ht hu h
  simp only [Verif.Spec.Sighash.view, Verif.Spec.Sighash.View.mk.injEq] at this
  have := congrArg (List.map fun x : Hash × UInt32 × Bytes × UInt32 => (x.1, x.2.1)) this.2.1
  simpa [keyOf, Function.comp_def] using this

/-- With the same witnesses the wire forms with witnesses are equal if those without are. -/
theorem full_same {t u : Tx} (ht : Sighash.Fit t) (hu : Sighash.Fit u) (h : t.toData false = u.toData false)
    (hs : t.segregated = u.segregated) (hw : t.inputs.map (fun i => i.witness.stack) = u.inputs.map (fun i => i.witness.stack)) :
    t.toData true = u.toData true := by
  have hv := same_view ht hu h
  simp only [Verif.Spec.Sighash.view, Verif.Spec.Sighash.View.mk.injEq] at hv
  obtain ⟨h1, h2, h3, h4⟩ := hv
  have l1 : t.inputs.length = u.inputs.length := by simpa using congrArg List.length h2
  have l2 : t.outputs.length = u.outputs.length := by simpa using congrArg List.length h3
  have e1 := Sighash.flatMap_same (fun i : Input => Sighash.Fits i.script) Input.toData _ (fun a b ha hb h => by
        simp only [Prod.mk.injEq] at h
        rw [Input.toData, Input.toData, Point.toData, Point.toData, h.1, h.2.1, h.2.2.2, Sighash.script_same ha hb h.2.2.1]) _ _ ht.inScripts hu.inScripts h2
  have e2 := Sighash.flatMap_same (fun o : Output => Sighash.Fits o.script) Output.toData _ (fun a b ha hb h => by
        simp only [Prod.mk.injEq] at h
        rw [Output.toData, Output.toData, h.1, Sighash.script_same ha hb h.2]) _ _ ht.outScripts hu.outScripts h3
  have e3 := Sighash.flatMap_same (fun _ : Input => True) (fun i : Input => i.witness.toData true) (fun i => i.witness.stack) (fun a b _ _ h => by
        simp only [Witness.toData, h]) t.inputs u.inputs (fun _ _ => trivial) (fun _ _ => trivial) hw
  unfold Tx.toData
  rw [h1, h4, l1, l2, hs, e1, e2, e3]

theorem header_root {a b : Header} (h : a.toData = b.toData) : a.merkleRoot = b.merkleRoot := by
  unfold Header.toData at h
  obtain ⟨_, h⟩ := Sighash.writeU32_prefix h
  obtain ⟨_, h⟩ := List.append_inj h (by rw [a.previous.len, b.previous.len])
  obtain ⟨h, _⟩ := List.append_inj h (by rw [a.merkleRoot.len, b.merkleRoot.len])
  exact Hash.ext h

theorem writeVariable_one : writeVariable 1 = [1] := by decide
theorem null_bytes : nullHash.bytes = List.replicate 32 0 := by decide

/-- The first 32 bytes of a coinbase are zero from the sixth on. -/
theorem coinbase_start {t : Tx} (h : CoinbaseTx t) {p : Bytes} {q : Bytes} (hp : p.length = 32) (he : t.toData false = p ++ q) :
    p.drop 5 = List.replicate 27 0 := by
  obtain ⟨i, hi, hn, _⟩ := h
  unfold Tx.toData at he
  rw [hi] at he
  simp only [Bool.false_and, Bool.false_eq_true, if_false, List.nil_append, List.length_singleton, writeVariable_one,
    List.flatMap_cons, List.flatMap_nil, List.append_nil, Input.toData, Point.toData, hn, null_bytes, List.append_assoc] at he
  have h4 : (writeU32 t.version).length = 4 := by simp [writeU32, writeLE]
  have hd := congrArg (List.drop 5) he
  rw [List.drop_append_of_le_length (l₁ := p) (by omega)] at hd
  have e : ∀ x : Bytes, List.drop 5 (writeU32 t.version ++ ([1] ++ x)) = x := by
    intro x
    rw [List.drop_append, h4, List.drop_of_length_le (by omega)]
    rfl
  rw [e] at hd
  have ht := congrArg (List.take 27) hd
  rw [List.take_append_of_le_length (by simp), List.take_append_of_le_length (by rw [List.length_drop, hp])] at ht
  rw [List.take_replicate, List.take_of_length_le (l := p.drop 5) (by rw [List.length_drop, hp])] at ht
  exact ht.symm

/-! ## Trees -/

/-- The digest on pairs of nodes. -/
abbrev node (D : Bytes → Hash) (l r : Hash) : Hash := D (l.bytes ++ r.bytes)

theorem level_joined (D : Bytes → Hash) : ∀ l : List Hash, level (node D) l = (joined l).map D
  | [] => rfl
  | [_] => rfl
  | a :: b :: rest => by rw [level, joined, List.map_cons, level_joined D rest]

theorem join_inj {a b c d : Hash} (h : a.bytes ++ b.bytes = c.bytes ++ d.bytes) : a = c ∧ b = d := by
  obtain ⟨h1, h2⟩ := List.append_inj h (by rw [a.len, c.len])
  exact ⟨Hash.ext h1, Hash.ext h2⟩

theorem mem_joined : ∀ {l : List Hash} {m : Bytes}, m ∈ joined l → ∃ a ∈ l, ∃ b ∈ l, m = a.bytes ++ b.bytes
  | [], m, h => by simp [joined] at h
  | [a], m, h => by simp only [joined, List.mem_singleton] at h; exact ⟨a, by simp, a, by simp, h⟩
  | a :: b :: l, m, h => by
    simp only [joined, List.mem_cons] at h
    rcases h with h | h
    · exact ⟨a, by simp, b, by simp, h⟩
    · obtain ⟨c, hc, d, hd, e⟩ := mem_joined h
      exact ⟨c, by simp [hc], d, by simp [hd], e⟩

theorem joined_nodup : ∀ {l : List Hash}, l.Nodup → (joined l).Nodup
  | [], _ => by simp [joined]
  | [_], _ => by simp [joined]
  | a :: b :: l, h => by
    simp only [joined, List.nodup_cons]
    obtain ⟨h1, h2⟩ := List.nodup_cons.1 h
    refine ⟨fun hm => ?_, joined_nodup (List.nodup_cons.1 h2).2⟩
    obtain ⟨c, hc, d, _, e⟩ := mem_joined hm
    exact h1 (by rw [(join_inj e).1]; simp [hc])

/-- Without repetitions the messages of a level determine it. -/
theorem joined_inj : ∀ {x y : List Hash}, x.Nodup → y.Nodup → joined x = joined y → x = y
  | [], [], _, _, _ => rfl
  | [], [_], _, _, h => by simp [joined] at h
  | [], _ :: _ :: _, _, _, h => by simp [joined] at h
  | [_], [], _, _, h => by simp [joined] at h
  | _ :: _ :: _, [], _, _, h => by simp [joined] at h
  | [a], [b], _, _, h => by simp only [joined, List.cons.injEq, and_true] at h; rw [(join_inj h).1]
  | [a], b :: c :: rest, _, h2, h => by
    simp only [joined, List.cons.injEq] at h
    obtain ⟨h3, h4⟩ := join_inj h.1
    simp [← h3, ← h4] at h2
  | b :: c :: rest, [a], h2, _, h => by
    simp only [joined, List.cons.injEq] at h
    obtain ⟨h3, h4⟩ := join_inj h.1
    simp [h3, h4] at h2
  | a :: b :: x, c :: d :: y, h1, h2, h => by
    simp only [joined, List.cons.injEq] at h
    obtain ⟨h3, h4⟩ := join_inj h.1
    rw [h3, h4, joined_inj (List.nodup_cons.1 (List.nodup_cons.1 h1).2).2 (List.nodup_cons.1 (List.nodup_cons.1 h2).2).2 h.2]

/-- So do the messages and the number of nodes. -/
theorem joined_same : ∀ {x y : List Hash}, x.length = y.length → joined x = joined y → x = y
  | [], [], _, _ => rfl
  | [a], [b], _, h => by simp only [joined, List.cons.injEq, and_true] at h; rw [(join_inj h).1]
  | a :: b :: x, c :: d :: y, hl, h => by
    simp only [joined, List.cons.injEq] at h
    obtain ⟨h3, h4⟩ := join_inj h.1
    rw [h3, h4, joined_same (by simpa using hl) h.2]
  | [], _ :: _, h, _ => by simp at h
  | _ :: _, [], h, _ => by simp at h
  | [_], _ :: _ :: _, h, _ => by simp at h
  | _ :: _ :: _, [_], h, _ => by simp at h

theorem joined_length (l : List Hash) : (joined l).length = (l.length + 1) / 2 := by
  have := level_length (node (fun _ => nullHash)) l
  rwa [level_joined, List.length_map] at this

/-- Injective on a set of messages. -/
def OneToOne (D : Bytes → Hash) (S : Bytes → Prop) : Prop := ∀ x y, S x → S y → D x = D y → x = y

theorem map_inj {D : Bytes → Hash} {S : Bytes → Prop} (hD : OneToOne D S) : ∀ {x y : List Bytes}, (∀ m ∈ x, S m) → (∀ m ∈ y, S m) →
    x.map D = y.map D → x = y
  | [], [], _, _, _ => rfl
  | [], _ :: _, _, _, h => by simp at h
  | _ :: _, [], _, _, h => by simp at h
  | a :: x, b :: y, hx, hy, h => by
    simp only [List.map_cons, List.cons.injEq] at h
    rw [hD a b (hx a (by simp)) (hy b (by simp)) h.1,
      map_inj hD (fun m hm => hx m (by simp [hm])) (fun m hm => hy m (by simp [hm])) h.2]

/-- A message of a tree joins two nodes, the first of which is a leaf or the digest of another message. -/
theorem inTree_node {D : Bytes → Hash} {l : List Hash} {m : Bytes} (h : InTree D l m) :
    ∃ p q : Hash, m = p.bytes ++ q.bytes ∧ (p ∈ l ∨ ∃ m', InTree D l m' ∧ p = D m') := by
  induction h with
  | here l m h2 hm =>
    obtain ⟨a, ha, b, _, e⟩ := mem_joined hm
    exact ⟨a, b, e, .inl ha⟩
  | above l m h2 _ ih =>
    obtain ⟨p, q, e, hp | ⟨m', hm', e'⟩⟩ := ih
    · obtain ⟨m', hm', rfl⟩ := List.mem_map.1 hp
      exact ⟨_, q, e, .inr ⟨m', .here l m' h2 hm', rfl⟩⟩
    · exact ⟨p, q, e, .inr ⟨m', .above l m' h2 hm', e'⟩⟩

theorem root_short {D : Bytes → Hash} {l : List Hash} {r : Hash} (h : IsRoot (node D) l r) (hl : ¬ 2 ≤ l.length) : r ∈ l := by
  cases h with
  | one a => simp
  | up _ _ h2 _ => exact absurd h2 hl

/-- The root of a tree with two leaves or more is the digest of one of its messages. -/
theorem root_message {D : Bytes → Hash} {l : List Hash} {r : Hash} (h : IsRoot (node D) l r) :
    2 ≤ l.length → ∃ m, InTree D l m ∧ r = D m := by
  induction h with
  | one a => intro h; simp at h
  | up l r h2 hr ih =>
    intro _
    rw [level_joined] at hr ih
    by_cases hl : 2 ≤ ((joined l).map D).length
    · obtain ⟨m, hm, e⟩ := ih hl
      exact ⟨m, .above l m h2 hm, e⟩
    · obtain ⟨m, hm, rfl⟩ := List.mem_map.1 (root_short hr hl)
      exact ⟨m, .here l m h2 hm, rfl⟩

theorem joined_head {D : Bytes → Hash} {l : List Hash} {x : Hash} (h : ((joined l).map D).head? = some x) :
    ∃ a b : Hash, l.head? = some a ∧ a.bytes ++ b.bytes ∈ joined l ∧ x = D (a.bytes ++ b.bytes) := by
  match l with
  | [] => simp [joined] at h
  | [a] => simp only [joined, List.map_cons, List.head?_cons, Option.some.injEq] at h; exact ⟨a, a, rfl, by simp [joined], h.symm⟩
  | a :: b :: l => simp only [joined, List.map_cons, List.head?_cons, Option.some.injEq] at h; exact ⟨a, b, rfl, by simp [joined], h.symm⟩

/-- Two trees with the same root over leaves without repetitions have the same leaves, or the first leaf of one is a node of the
other. -/
theorem same_root {D : Bytes → Hash} {S : Bytes → Prop} (hD : OneToOne D S) {x : List Hash} {r : Hash} (hx : IsRoot (node D) x r) :
    ∀ {y : List Hash}, IsRoot (node D) y r → x.Nodup → y.Nodup → (∀ m, InTree D x m → S m) → (∀ m, InTree D y m → S m) →
    x = y ∨ (∃ m, InTree D y m ∧ x.head? = some (D m)) ∨ ∃ m, InTree D x m ∧ y.head? = some (D m) := by
  induction hx with
  | one a =>
    intro y hy _ _ _ _
    cases hy with
    | one b => exact .inl rfl
    | up _ _ h2 h =>
      obtain ⟨m, hm, e⟩ := root_message (.up _ _ h2 h) h2
      exact .inr (.inl ⟨m, hm, by rw [e]; rfl⟩)
  | up x r hx2 hx ih =>
    intro y hy nx ny sx sy
    cases hy with
    | one b =>
      obtain ⟨m, hm, e⟩ := root_message (.up _ _ hx2 hx) hx2
      exact .inr (.inr ⟨m, hm, by rw [e]; rfl⟩)
    | up _ _ hy2 hy =>
      rw [level_joined] at hx hy ih
      have jx : ∀ m ∈ joined x, S m := fun m hm => sx m (.here x m hx2 hm)
      have jy : ∀ m ∈ joined y, S m := fun m hm => sy m (.here y m hy2 hm)
      have ux : ∀ m, InTree D ((joined x).map D) m → S m := fun m hm => sx m (.above x m hx2 hm)
      have uy : ∀ m, InTree D ((joined y).map D) m → S m := fun m hm => sy m (.above y m hy2 hm)
      have step : ∀ (u w : List Hash), 2 ≤ w.length → (∀ m ∈ joined u, S m) → (∀ m, InTree D ((joined w).map D) m → S m) →
          (∃ m, InTree D ((joined w).map D) m ∧ ((joined u).map D).head? = some (D m)) → ∃ m, InTree D w m ∧ u.head? = some (D m) := by
        rintro u w hw ju uw ⟨m, hm, e⟩
        obtain ⟨a, b, ha, hj, e2⟩ := joined_head e
        have hab := hD _ _ (uw m hm) (ju _ hj) e2
        obtain ⟨p, q, e3, hp⟩ := inTree_node hm
        obtain ⟨e4, _⟩ := join_inj (e3.symm.trans hab)
        rw [ha, ← e4]
        rcases hp with hp | ⟨m', hm', rfl⟩
        · obtain ⟨m', hm', rfl⟩ := List.mem_map.1 hp
          exact ⟨m', .here w m' hw hm', rfl⟩
        · exact ⟨m', .above w m' hw hm', rfl⟩
      rcases ih hy ((joined_nodup nx).map_on fun a ha b hb e => hD a b (jx a ha) (jx b hb) e)
        ((joined_nodup ny).map_on fun a ha b hb e => hD a b (jy a ha) (jy b hb) e) ux uy with h | h | h
      · exact .inl (joined_inj nx ny (map_inj hD jx jy h))
      · exact .inr (.inl (step x y hy2 jx uy h))
      · exact .inr (.inr (step y x hx2 jy ux h))

/-- Two trees with the same root and the same number of leaves have the same leaves. -/
theorem same_size {D : Bytes → Hash} {S : Bytes → Prop} (hD : OneToOne D S) {x : List Hash} {r : Hash} (hx : IsRoot (node D) x r) :
    ∀ {y : List Hash}, IsRoot (node D) y r → x.length = y.length → (∀ m, InTree D x m → S m) → (∀ m, InTree D y m → S m) → x = y := by
  induction hx with
  | one a =>
    intro y hy hl _ _
    cases hy with
    | one b => rfl
    | up _ _ h _ => simp at hl; omega
  | up x r hx2 hx ih =>
    intro y hy hl sx sy
    cases hy with
    | one b => simp at hl; omega
    | up _ _ hy2 hy =>
      rw [level_joined] at hx hy ih
      have := ih hy (by rw [List.length_map, List.length_map, joined_length, joined_length, hl])
        (fun m hm => sx m (.above x m hx2 hm)) (fun m hm => sy m (.above y m hy2 hm))
      exact joined_same hl (map_inj hD (fun m hm => sx m (.here x m hx2 hm)) (fun m hm => sy m (.here y m hy2 hm)) this)

/-! ## Blocks -/

theorem one_to_one {D : Bytes → Hash} {S : Bytes → Prop} (h : ¬ Collision D S) : OneToOne D S := by
  intro x y hx hy e
  by_contra hne
  exact h ⟨x, y, hx, hy, hne, e⟩

theorem accepted {D : Bytes → Hash} {v : Validate.View} (hv : Uses D v) {b : Block} (hb : Whole b) (h : blockCheck v b true = none) :
    BlockValid (Verif.Spec.txid D) b ∧ IsRoot (node D) (b.txs.map (Verif.Spec.txid D)) b.header.merkleRoot := by
  have hl := hb.length
  have hn := block_nominal_le b
  obtain ⟨h1, h2⟩ := (C27_check v b true hb.sized (by omega) (fun t ht i hi => by
    have := in_length (tx_length hb ht) hi; omega)).1 h
  rw [hv.txid] at h1
  have h2 := h2 rfl
  rw [hv.txid, hv.pair] at h2
  exact ⟨h1, h2⟩

/-- No two transactions of an accepted block have the same identifier. -/
theorem distinct {D : Bytes → Hash} {S : Bytes → Prop} (hD : OneToOne D S) {b : Block} (hS : ∀ m, Hashed D b m → S m) (hb : Whole b) (h : BlockValid (Verif.Spec.txid D) b) :
    (b.txs.map (Verif.Spec.txid D)).Nodup := by
  have hf : ∀ t ∈ b.txs, Sighash.Fit t := fun t ht => fit (hb.writable.txs t ht) (tx_length hb ht)
  have hsame : ∀ t ∈ b.txs, ∀ u ∈ b.txs, Verif.Spec.txid D t = Verif.Spec.txid D u →
      t.inputs.map (fun i => keyOf i.point) = u.inputs.map (fun i => keyOf i.point) := fun t ht u hu e =>
    same_inputs (hf t ht) (hf u hu) (hD _ _ (hS _ (.tx t ht)) (hS _ (.tx u hu)) e)
  have h1 := h.first
  have h2 := h.others
  have h3 := h.spends
  have h4 := h.txs
  generalize b.txs = txs at *
  cases txs with
  | nil => simp
  | cons c ts =>
    rw [List.map_cons, List.nodup_cons]
    constructor
    · intro hm
      obtain ⟨u, hu, e⟩ := List.mem_map.1 hm
      have := hsame u (by simp [hu]) c (by simp) e
      obtain ⟨i, hi, hn⟩ := h1 c rfl
      rw [hi] at this
      obtain ⟨j, hj, e2⟩ : ∃ j, u.inputs = [j] ∧ keyOf j.point = keyOf i.point := by
        cases hx : u.inputs with
        | nil => rw [hx] at this; simp at this
        | cons j js =>
          rw [hx] at this
          cases js with
          | nil => exact ⟨j, rfl, by simpa using this⟩
          | cons _ _ => simp at this
      refine h2 u hu ⟨j, hj, ?_⟩
      simp only [keyOf, Prod.mk.injEq] at e2
      exact ⟨e2.1.trans hn.1, e2.2.trans hn.2⟩
    · have hs : ∀ t ∈ ts, ∀ u ∈ ts, Verif.Spec.txid D t = Verif.Spec.txid D u →
        t.inputs.map (fun i => keyOf i.point) = u.inputs.map (fun i => keyOf i.point) :=
        fun t ht u hu => hsame t (by simp [ht]) u (by simp [hu])
      have hi : ∀ t ∈ ts, t.inputs ≠ [] := fun t ht => (h4 t (by simp [ht])).hasInputs
      simp only [spentKeys, List.tail_cons] at h3
      clear hsame h1 h2 h4 hf h hb hS
      induction ts with
      | nil => simp
      | cons t ts ih =>
        rw [List.flatMap_cons, List.nodup_append] at h3
        rw [List.map_cons, List.nodup_cons]
        refine ⟨?_, ih h3.2.1 (fun a ha b hb => hs a (by simp [ha]) b (by simp [hb])) (fun a ha => hi a (by simp [ha]))⟩
        intro hm
        obtain ⟨u, hu, e⟩ := List.mem_map.1 hm
        have := hs u (by simp [hu]) t (by simp) e
        cases hx : t.inputs with
        | nil => exact hi t (by simp) hx
        | cons i is =>
          have hk : keyOf i.point ∈ t.inputs.map (fun i => keyOf i.point) := by rw [hx]; simp
          have hk2 := hk
          rw [← this] at hk2
          exact h3.2.2 _ hk _ (List.mem_flatMap.2 ⟨u, hu, hk2⟩) rfl

/-- The first transaction of an accepted block is a node of another tree only if a digest is almost zero. -/
theorem confused {D : Bytes → Hash} {S : Bytes → Prop} (hD : OneToOne D S) {a b : Block} (ha : BlockValid (Verif.Spec.txid D) a)
    (sa : ∀ m, Hashed D a m → S m) (sb : ∀ m, Hashed D b m → S m) {m : Bytes} (hm : InTree D (b.txs.map (Verif.Spec.txid D)) m)
    (e : (a.txs.map (Verif.Spec.txid D)).head? = some (D m)) : NearZero D S := by
  cases hx : a.txs with
  | nil => exact absurd hx ha.nonempty
  | cons c ts =>
    rw [hx, List.map_cons, List.head?_cons, Option.some.injEq] at e
    have hcm := hD _ _ (sa _ (.tx c (by rw [hx]; simp))) (sb _ (.node m hm)) e
    obtain ⟨p, q, e2, hp⟩ := inTree_node hm
    have hz := coinbase_start (ha.first c (by rw [hx]; rfl)) p.len (hcm.trans e2)
    rcases hp with hp | ⟨m', hm', rfl⟩
    · obtain ⟨t, ht, rfl⟩ := List.mem_map.1 hp
      exact ⟨_, sb _ (.tx t ht), hz⟩
    · exact ⟨m', sb _ (.node m' hm'), hz⟩

/-- The messages hashed for two blocks. -/
abbrev Both (P : Block → Bytes → Prop) (a b : Block) (m : Bytes) : Prop := P a m ∨ P b m

/-- Two accepted blocks with the same header hash have the same header and the same transactions, up to witnesses, unless
the messages hashed for them contain a collision or one with a digest that is almost zero. -/
theorem C105_block (D : Bytes → Hash) (v : Validate.View) (hv : Uses D v) (a b : Block) (ha : Whole a) (hb : Whole b)
    (h1 : blockCheck v a true = none) (h2 : blockCheck v b true = none) (h : D a.header.toData = D b.header.toData) :
    Collision D (Both (Hashed D) a b) ∨ NearZero D (Both (Hashed D) a b) ∨
      (a.header.toData = b.header.toData ∧ a.txs.map (fun t => t.toData false) = b.txs.map fun t => t.toData false) := by
  by_cases hc : Collision D (Both (Hashed D) a b)
  · exact .inl hc
  by_cases hz : NearZero D (Both (Hashed D) a b)
  · exact .inr (.inl hz)
  have hD := one_to_one hc
  have sa : ∀ m, Hashed D a m → Both (Hashed D) a b m := fun m hm => .inl hm
  have sb : ∀ m, Hashed D b m → Both (Hashed D) a b m := fun m hm => .inr hm
  have hh := hD _ _ (sa _ .header) (sb _ .header) h
  refine .inr (.inr ⟨hh, ?_⟩)
  obtain ⟨va, ra⟩ := accepted hv ha h1
  obtain ⟨vb, rb⟩ := accepted hv hb h2
  rw [← header_root hh] at rb
  rcases same_root hD ra rb (distinct hD sa ha va) (distinct hD sb hb vb) (fun m hm => sa _ (.node m hm)) (fun m hm => sb _ (.node m hm))
    with this | ⟨m, hm, e⟩ | ⟨m, hm, e⟩
  · have e : ∀ l : List Tx, l.map (Verif.Spec.txid D) = (l.map fun t => t.toData false).map D := fun l => by
      rw [List.map_map]; rfl
    rw [e, e] at this
    refine map_inj hD (fun m hm => ?_) (fun m hm => ?_) this
    · obtain ⟨t, ht, rfl⟩ := List.mem_map.1 hm
      exact sa _ (.tx t ht)
    · obtain ⟨t, ht, rfl⟩ := List.mem_map.1 hm
      exact sb _ (.tx t ht)
  · exact absurd (confused hD va sa sb hm e) hz
  · exact absurd (confused hD vb sb sa hm e) hz

/-! ## Witnesses -/

theorem unsegregated {t : Tx} (h : t.segregated = segregatedInputs t.inputs) (hn : ∀ i ∈ t.inputs, i.witness.stack = []) : t.segregated = false := by
  rw [h]
  simp only [segregatedInputs, List.any_eq_false]
  intro i hi
  simp [hn i hi]

/-- If the blocks pass the witness rule too, their complete wire forms are the same. -/
theorem C105_witness (D : Bytes → Hash) (v : Validate.View) (hv : Uses D v) (a b : Block) (ha : Whole a) (hb : Whole b)
    (h1 : blockCheck v a true = none) (h2 : blockCheck v b true = none)
    (w1 : isInvalidWitnessCommitment v a.txs = false) (w2 : isInvalidWitnessCommitment v b.txs = false)
    (h : D a.header.toData = D b.header.toData) :
    Collision D (Both (WitnessHashed D) a b) ∨ NearZero D (Both (WitnessHashed D) a b) ∨ a.toData true = b.toData true := by
  have up : ∀ m, Both (Hashed D) a b m → Both (WitnessHashed D) a b m := by
    rintro m (hm | hm)
    · exact .inl (.nominal m hm)
    · exact .inr (.nominal m hm)
  rcases C105_block D v hv a b ha hb h1 h2 h with ⟨x, y, hx, hy, hc⟩ | ⟨m, hm, hz⟩ | ⟨hh, ht⟩
  · exact .inl ⟨x, y, up x hx, up y hy, hc⟩
  · exact .inr (.inl ⟨m, up m hm, hz⟩)
  by_cases hc : Collision D (Both (WitnessHashed D) a b)
  · exact .inl hc
  have hD := one_to_one hc
  refine .inr (.inr ?_)
  obtain ⟨va, _⟩ := accepted hv ha h1
  obtain ⟨vb, _⟩ := accepted hv hb h2
  have hlen : a.txs.length = b.txs.length := by simpa using congrArg List.length ht
  suffices hs : a.txs.map (fun t => t.toData true) = b.txs.map fun t => t.toData true by
    unfold Block.toData
    rw [hh, hlen, List.flatMap_def, List.flatMap_def, hs]
  have oka : ∀ t ∈ a.txs, ∀ o ∈ t.outputs, OpsOK o.script.ops ∧ (opsData o.script.ops).length < 2 ^ 63 := fun t ht o ho =>
    ⟨((ha.writable.txs t ht).outScripts o ho).ops, out_length (tx_length ha ht) ho⟩
  have okb : ∀ t ∈ b.txs, ∀ o ∈ t.outputs, OpsOK o.script.ops ∧ (opsData o.script.ops).length < 2 ^ 63 := fun t ht o ho =>
    ⟨((hb.writable.txs t ht).outScripts o ho).ops, out_length (tx_length hb ht) ho⟩
  have wa := (C54_rule v a.txs va.nonempty oka fun t ht => (ha.writable.txs t ht).segregated).1 w1
  have wb := (C54_rule v b.txs vb.nonempty okb fun t ht => (hb.writable.txs t ht).segregated).1 w2
  rw [hv.wtxid, hv.pair] at wa wb
  have fa : ∀ t ∈ a.txs, Sighash.Fit t := fun t ht => fit (ha.writable.txs t ht) (tx_length ha ht)
  have fb : ∀ t ∈ b.txs, Sighash.Fit t := fun t ht => fit (hb.writable.txs t ht) (tx_length hb ht)
  have sa : ∀ t ∈ a.txs, t.segregated = segregatedInputs t.inputs := fun t ht => (ha.writable.txs t ht).segregated
  have sb : ∀ t ∈ b.txs, t.segregated = segregatedInputs t.inputs := fun t ht => (hb.writable.txs t ht).segregated
  have fsta := va.first
  have fstb := vb.first
  have otha := va.others
  have othb := vb.others
  have nea := va.nonempty
  have neb := vb.nonempty
  clear va vb h1 h2 w1 w2
  cases hta : a.txs with
  | nil => exact absurd hta nea
  | cons c ts =>
  cases htb : b.txs with
  | nil => exact absurd htb neb
  | cons d us =>
  have ea : c ∈ a.txs := by rw [hta]; simp
  have eb : d ∈ b.txs := by rw [htb]; simp
  have tail : ts.map (fun t => t.toData false) = us.map fun t => t.toData false := by
    rw [hta, htb] at ht; simp only [List.map_cons, List.cons.injEq] at ht; exact ht.2
  have hcd : c.toData false = d.toData false := by
    rw [hta, htb] at ht; simp only [List.map_cons, List.cons.injEq] at ht; exact ht.1
  have hscripts : coinbaseScripts a.txs = coinbaseScripts b.txs := by
    have hv := same_view (fa c ea) (fb d eb) hcd
    simp only [Verif.Spec.Sighash.view, Verif.Spec.Sighash.View.mk.injEq] at hv
    have := congrArg (List.map Prod.snd) hv.2.2.1
    rw [hta, htb]
    simpa [coinbaseScripts, Function.comp_def] using this
  have hlast : ∀ x, LastCommitment a.txs x ↔ LastCommitment b.txs x := fun x => by unfold LastCommitment; rw [hscripts]
  rcases wa with ⟨na, ea'⟩ | ⟨ca, ra, xa, la, ka, ira, pa⟩
  · rcases wb with ⟨_, eb'⟩ | ⟨cb, _, _, lb, _⟩
    · rw [← hta, ← htb]
      have e1 : a.txs.map (fun t => t.toData true) = a.txs.map fun t => t.toData false :=
        List.map_congr_left fun t ht => by
          have := unsegregated (sa t ht) (ea' t ht)
          simp [Tx.toData, this]
      have e2 : b.txs.map (fun t => t.toData true) = b.txs.map fun t => t.toData false :=
        List.map_congr_left fun t ht => by
          have := unsegregated (sb t ht) (eb' t ht)
          simp [Tx.toData, this]
      rw [e1, e2, ht]
    · exact absurd ((hlast _).2 lb) (na _)
  · rcases wb with ⟨nb, _⟩ | ⟨cb, rb, xb, lb, kb, irb, pb⟩
    · exact absurd ((hlast _).1 la) (nb _)
    · have hcc : ca = cb := by
        have e1 := (C54_commitment a.txs ca oka).2 la
        have e2 := (C54_commitment a.txs cb oka).2 ((hlast _).2 lb)
        rw [e1] at e2
        exact Option.some.inj e2
      rw [pa, pb] at hcc
      obtain ⟨hr, hx⟩ := join_inj (hD _ _ (.inl (.commitment ra _ ira ka)) (.inr (.commitment rb _ irb kb)) hcc)
      rw [← hr] at irb
      have hw := same_size hD ira irb (by rw [List.length_map, List.length_map, hlen]) (fun m hm => .inl (.node m hm)) (fun m hm => .inr (.node m hm))
      rw [hta, htb, List.map_cons, List.map_cons, List.cons.injEq] at hw
      rw [List.map_cons, List.map_cons]
      congr 1
      · obtain ⟨i, hi, _⟩ := fsta c (by rw [hta]; rfl)
        obtain ⟨j, hj, _⟩ := fstb d (by rw [htb]; rfl)
        rw [hta] at ka
        rw [htb] at kb
        simp only [coinbaseStack, hi, hj] at ka kb
        refine full_same (fa c ea) (fb d eb) hcd ?_ ?_
        · rw [sa c ea, sb d eb, hi, hj]
          simp [segregatedInputs, ka, kb]
        · rw [hi, hj, List.map_cons, List.map_cons, ka, kb, hx]
      · have e : ∀ (l : List Tx), (∀ t ∈ l, ¬ CoinbaseTx t) → l.map (Verif.Spec.wtxid D) = (l.map fun t => t.toData true).map D := by
          intro l hl
          rw [List.map_map]
          refine List.map_congr_left fun t ht => ?_
          unfold Verif.Spec.wtxid
          rw [if_neg (fun k => hl t ht ((coinbase_iff t).1 k.2))]
          rfl
        have h2 := hw.2
        rw [e ts (fun t ht => otha t (by rw [hta]; exact ht)), e us (fun t ht => othb t (by rw [htb]; exact ht))] at h2
        refine map_inj hD (fun m hm => ?_) (fun m hm => ?_) h2
        · obtain ⟨t, ht, rfl⟩ := List.mem_map.1 hm
          exact .inl (.tx t (by rw [hta]; simp [ht]))
        · obtain ⟨t, ht, rfl⟩ := List.mem_map.1 hm
          exact .inr (.tx t (by rw [htb]; simp [ht]))

/-! ## Blocks read from the wire -/

/-- A block that the reader accepts is whole, and the bytes read are its wire form. -/
theorem read_whole {d : Bytes} (hd : d.length < 2 ^ 63) (hg : (Block.read true (RS.init d)).2.good = true) :
    Whole (Block.read true (RS.init d)).1 ∧ d = (Block.read true (RS.init d)).1.toData true ++ (Block.read true (RS.init d)).2.rest := by
  obtain ⟨h1, h2⟩ := C10_block_canonical (RS.init d) (Nat.zero_le _) hd rfl hg
  obtain ⟨_, _, _, ⟨_, hn, _⟩, _⟩ := bwd_block.back _ (init_ok hd) (init_unl hd) hg
  rw [init_rest] at h1
  refine ⟨?_, h1⟩
  generalize (Block.read true (RS.init d)).2.rest = rest at *
  generalize (Block.read true (RS.init d)).1 = b at *
  have hl : (b.toData true).length < 2 ^ 63 := by
    have := congrArg List.length h1
    rw [List.length_append] at this; omega
  refine ⟨h2, fun t ht => ?_, hl⟩
  have hlt : (t.toData true).length < 2 ^ 63 := by
    have := mem_le (fun t : Tx => t.toData true) b.txs t ht
    simp only [Block.toData, List.length_append] at hl
    omega
  have hw := h2.txs t ht
  refine ⟨fun i hi => ⟨(hw.inScripts i hi).sized (by have := in_length hlt hi; omega), ?_⟩,
    fun o ho => (hw.outScripts o ho).sized (by have := out_length hlt ho; omega)⟩
  have ht' : t ∈ b.txs.map Tx.norm := by
    have := congrArg Block.txs hn
    rw [show b.norm.txs = b.txs.map Tx.norm from rfl] at this
    rw [← this]; exact ht
  obtain ⟨u, _, rfl⟩ := List.mem_map.1 ht'
  obtain ⟨j, _, rfl⟩ := List.mem_map.1 (show i ∈ u.inputs.map (Input.norm u.segregated) from hi)
  unfold Input.norm
  cases u.segregated
  · show (0 : Nat) = stackSize []
    rfl
  · show stackSize _ = stackSize _
    rfl

/-- Two byte strings that are read completely as blocks which pass both checks, and whose first 80 bytes have the same hash, are
the same bytes, unless the messages hashed for them contain a collision or one with a digest that is almost zero. -/
theorem C105_wire (D : Bytes → Hash) (v : Validate.View) (hv : Uses D v) (x y : Bytes) (hx : x.length < 2 ^ 63) (hy : y.length < 2 ^ 63)
    (a b : Block) (ra : (Block.read true (RS.init x)).1 = a) (rb : (Block.read true (RS.init y)).1 = b)
    (gx : (Block.read true (RS.init x)).2.good = true) (gy : (Block.read true (RS.init y)).2.good = true)
    (ex : (Block.read true (RS.init x)).2.rest = []) (ey : (Block.read true (RS.init y)).2.rest = [])
    (h1 : blockCheck v a true = none) (h2 : blockCheck v b true = none)
    (w1 : isInvalidWitnessCommitment v a.txs = false) (w2 : isInvalidWitnessCommitment v b.txs = false)
    (h : D (x.take 80) = D (y.take 80)) :
    Collision D (Both (WitnessHashed D) a b) ∨ NearZero D (Both (WitnessHashed D) a b) ∨ x = y := by
  obtain ⟨ha, ea⟩ := read_whole hx gx
  obtain ⟨hb, eb⟩ := read_whole hy gy
  rw [ra, ex, List.append_nil] at ea
  rw [rb, ey, List.append_nil] at eb
  rw [ra] at ha
  rw [rb] at hb
  have head : ∀ b : Block, (b.toData true).take 80 = b.header.toData := fun b => by
    unfold Block.toData
    exact List.take_left' (b.header.size_ok.symm)
  rw [ea, eb, head, head] at h
  rcases C105_witness D v hv a b ha hb h1 h2 w1 w2 h with h | h | h
  · exact .inl h
  · exact .inr (.inl h)
  · exact .inr (.inr (by rw [ea, eb, h]))

/-! Non-vacuity: a block accepted under a digest without collisions or near zeros among the messages of this block. -/
def cityD (m : Bytes) : Hash := ⟨List.replicate 31 1 ++ [m.foldl (· + ·) 0], by simp⟩
def cityView : Validate.View := { toyView with
  txid := Verif.Spec.txid cityD, wtxid := Verif.Spec.wtxid cityD, pair := fun l r => cityD (l.bytes ++ r.bytes) }
def cityBlock : Block where
  header := { version := 1, previous := nullHash, merkleRoot := Verif.Spec.txid cityD toyCoinbase, timestamp := 0, bits := 0, nonce := 0 }
  txs := [toyCoinbase]

theorem city_messages {m : Bytes} (h : Hashed cityD cityBlock m) : m = cityBlock.header.toData ∨ m = toyCoinbase.toData false := by
  cases h with
  | header => exact .inl rfl
  | tx t ht => exact .inr (by rw [List.mem_singleton.1 ht])
  | node _ hm =>
    cases hm with
    | here _ _ h2 _ => simp [cityBlock] at h2
    | above _ _ h2 _ => simp [cityBlock] at h2

example : Uses cityD cityView := ⟨rfl, rfl, rfl⟩
example : blockCheck cityView cityBlock true = none ∧ isInvalidWitnessCommitment cityView cityBlock.txs = false ∧
    (Block.read true (RS.init (cityBlock.toData true))).2.good = true ∧
    (Block.read true (RS.init (cityBlock.toData true))).2.rest = [] := by decide +kernel
example : ¬ Collision cityD (Both (Hashed cityD) cityBlock cityBlock) := by
  have hne : cityD cityBlock.header.toData ≠ cityD (toyCoinbase.toData false) := by decide +kernel
  rintro ⟨x, y, hx, hy, hxy, e⟩
  rcases (hx.elim city_messages city_messages) with rfl | rfl <;> rcases (hy.elim city_messages city_messages) with rfl | rfl
  · exact hxy rfl
  · exact hne e
  · exact hne e.symm
  · exact hxy rfl
example : ¬ NearZero cityD (Both (Hashed cityD) cityBlock cityBlock) := by
  rintro ⟨m, _, h⟩
  have := congrArg (fun l : Bytes => l.headD 0) h
  simp [cityD] at this

end Verif.BlockCommit
