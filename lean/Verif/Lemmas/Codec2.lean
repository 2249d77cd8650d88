import Verif.Lemmas.Codec
import Verif.Model.ChainEq
/-! Helper lemmas: header and block codecs, equality up to normalisation, sizes, the two parse modes. -/
namespace Verif

/-! ### header, block -/

def Header.norm (h : Header) : Header := { h with valid := true }

theorem fwd_header (h : Header) : FwdU Header.read h.toData h.norm := by
  unfold Header.read Header.toData
  refine (fwd_readU32 h.version).U.bind ((fwd_readHash h.previous).U.bind ((fwd_readHash h.merkleRoot).U.bind
    ((fwd_readU32 h.timestamp).U.bind ((fwd_readU32 h.bits).U.bind ((fwd_readU32 h.nonce).U.bind0 ?_)))))
  exact FwdU.done _

theorem bwd_header : BwdU Header.read (fun h b => h = h.norm ∧ b = h.toData) := by
  unfold Header.read
  refine (bwd_readU32.U.bind fun v => bwd_readHash.U.bind fun p => bwd_readHash.U.bind fun m =>
    bwd_readU32.U.bind fun t => bwd_readU32.U.bind fun bi => bwd_readU32.U.bind fun n =>
    bwd_isGood.U.bind fun g => BwdU.pure _).mono ?_
  rintro h b ⟨v, _, _, rfl, rfl, p, _, _, rfl, rfl, m, _, _, rfl, rfl, t, _, _, rfl, rfl, bi, _, _, rfl, rfl,
    n, _, _, rfl, rfl, g, _, _, rfl, ⟨rfl, rfl⟩, rfl, rfl⟩
  exact ⟨rfl, by simp [Header.toData]⟩

def Block.norm (b : Block) : Block := { header := b.header.norm, txs := b.txs.map Tx.norm, valid := true }

theorem fwd_block {b : Block} (h : b.Writable) : FwdU (Block.read true) (b.toData true) b.norm := by
  unfold Block.read Block.toData
  refine (fwd_header b.header).bind ((fwd_readPuts (enc := fun t => t.toData true) b.txs h.count
    fun t ht => fwd_tx (h.txs t ht)).bind0 ?_)
  exact FwdU.done _

theorem bwd_block : BwdU (Block.read true) (fun b bs => b.Writable ∧ b = b.norm ∧ bs = b.toData true) := by
  unfold Block.read
  refine (bwd_header.bind fun h => (bwd_readPuts (P := fun t => t.Writable ∧ t = t.norm) (enc := fun t => t.toData true)
    (bwd_tx.mono (by rintro _ _ ⟨h1, h2, h3⟩; exact ⟨⟨h1, h2⟩, h3⟩))).bind fun txs =>
    bwd_isGood.U.bind fun g => BwdU.pure _).mono ?_
  rintro b bs ⟨h, _, _, rfl, ⟨hh, rfl⟩, txs, _, _, rfl, ⟨hc, ht, rfl⟩, g, _, _, rfl, ⟨rfl, rfl⟩, rfl, rfl⟩
  refine ⟨⟨hc, fun t h => (ht t h).1⟩, ?_, by simp [Block.toData]⟩
  have : txs.map Tx.norm = txs := by
    conv => rhs; rw [← List.map_id txs]
    exact List.map_congr_left fun t h => ((ht t h).2).symm
  unfold Block.norm
  simp only
  rw [this, ← hh]

/-! ### equality -/

theorem deepEqual_map {α} {eq : α → α → Bool} {f : α → α} : ∀ {l : List α}, (∀ x ∈ l, eq (f x) x = true) →
    deepEqual eq (l.map f) l = true := by
  intro l
  induction l with
  | nil => intro _; rfl
  | cons a l ih =>
    intro h
    simp only [List.map_cons, deepEqual, Bool.and_eq_true]
    exact ⟨h a (by simp), ih fun x hx => h x (by simp [hx])⟩

theorem deepEqual_refl {α} {eq : α → α → Bool} (h : ∀ x, eq x x = true) (l : List α) : deepEqual eq l l = true := by
  have := deepEqual_map (f := id) (l := l) (eq := eq) fun x _ => h x
  simpa using this

theorem deepEqual_iff {α} {eq : α → α → Bool} (h : ∀ x y, eq x y = true ↔ x = y) : ∀ l m : List α,
    deepEqual eq l m = true ↔ l = m := by
  intro l
  induction l with
  | nil => intro m; cases m <;> simp [deepEqual]
  | cons a l ih =>
    intro m
    cases m with
    | nil => simp [deepEqual]
    | cons b m => simp [deepEqual, h, ih]

theorem Op.eqv_iff (a b : Op) : a.eqv b = true ↔ a = b := by
  cases a; cases b; simp [Op.eqv]

theorem Script.eqv_iff (a b : Script) : a.eqv b = true ↔ a.size = b.size ∧ a.ops = b.ops := by
  simp [Script.eqv, deepEqual_iff Op.eqv_iff]

theorem Script.eqv_norm (s : Script) : s.norm.eqv s = true := by
  rw [Script.eqv_iff]; exact ⟨rfl, rfl⟩

theorem Witness.eqv_iff (a b : Witness) : a.eqv b = true ↔ a.stack = b.stack := by
  unfold Witness.eqv
  exact deepEqual_iff (by simp) _ _

theorem Output.eqv_norm (o : Output) : o.norm.eqv o = true := by
  simp only [Output.eqv, Output.norm, Script.eqv_norm]; simp

theorem Input.eqv_norm (seg : Bool) (i : Input) (h : seg = false → i.witness.stack = []) :
    (i.norm seg).eqv i = true := by
  unfold Input.eqv Input.norm Input.norm0
  simp only [Script.eqv_norm, Bool.true_and, Bool.and_eq_true, beq_self_eq_true, true_and]
  refine ⟨by simp [Point.eqv, Point.norm], ?_⟩
  rw [Witness.eqv_iff]
  cases seg
  · simp [Witness.empty, h rfl]
  · simp [Witness.norm, Witness.ofStack]

theorem Tx.eqv_norm {t : Tx} (h : t.segregated = segregatedInputs t.inputs) : t.norm.eqv t = true := by
  unfold Tx.eqv Tx.norm
  simp only [beq_self_eq_true, Bool.true_and, Bool.and_eq_true]
  refine ⟨deepEqual_map fun i hi => Input.eqv_norm _ i fun hs => ?_, deepEqual_map fun o _ => o.eqv_norm⟩
  rw [hs] at h
  have := List.any_eq_false.mp h.symm i hi
  simpa using this

theorem Header.eqv_norm (h : Header) : h.norm.eqv h = true := by simp [Header.eqv, Header.norm]

theorem Block.eqv_norm {b : Block} (h : ∀ t ∈ b.txs, t.segregated = segregatedInputs t.inputs) :
    b.norm.eqv b = true := by
  unfold Block.eqv Block.norm
  simp only [Bool.and_eq_true]
  exact ⟨b.header.eqv_norm, deepEqual_map fun t ht => Tx.eqv_norm (h t ht)⟩

/-! ### sizes: every reported size is the byte count (below `2^64`) -/

theorem cadd_of_lt {a b : Nat} (h : a + b < 2 ^ 64) : cadd a b = a + b := by
  unfold cadd
  have : maxSize = 2 ^ 64 - 1 := rfl
  omega

theorem foldl_cadd {α} (f g : α → Nat) : ∀ (l : List α) (t : Nat),
    t + (l.map g).sum < 2 ^ 64 → (∀ x ∈ l, g x < 2 ^ 64 → f x = g x) →
    l.foldl (fun t x => cadd t (f x)) t = t + (l.map g).sum := by
  intro l
  induction l with
  | nil => intro t h _; rfl
  | cons a l ih =>
    intro t h hx
    rw [List.map_cons, List.sum_cons] at h
    have e : f a = g a := hx a (by simp) (by omega)
    have e2 : cadd t (f a) = t + g a := by rw [e]; exact cadd_of_lt (by omega)
    rw [List.foldl_cons, e2, ih (t + g a) (by omega) (fun x h => hx x (by simp [h]))]
    rw [List.map_cons, List.sum_cons]; omega

theorem sumSize_eq {α} {f : α → Nat} {enc : α → Bytes} (l : List α) (h : (l.flatMap enc).length < 2 ^ 64)
    (hx : ∀ x ∈ l, (enc x).length < 2 ^ 64 → f x = (enc x).length) : sumSize f l = (l.flatMap enc).length := by
  unfold sumSize
  rw [List.length_flatMap] at h ⊢
  rw [foldl_cadd f (fun x => (enc x).length) l 0 (by omega) hx]
  omega

theorem opsSize_eq (ops : List Op) (h : (opsData ops).length < 2 ^ 64) : opsSize ops = (opsData ops).length :=
  sumSize_eq ops h fun o _ _ => o.size_eq

theorem Script.size_ok {s : Script} (h : s.Sized) (p : Bool) (hl : (s.toData p).length < 2 ^ 64) :
    s.serializedSize p = (s.toData p).length := by
  have hl2 := hl
  unfold Script.toData at hl
  rw [List.length_append] at hl
  have e : s.size = (opsData s.ops).length := by rw [h]; exact opsSize_eq _ (by omega)
  cases p
  · simp [Script.serializedSize, Script.toData, e]
  · simp only [Script.toData, Script.serializedSize, if_true, Bool.false_eq_true, if_false, List.length_append,
      writeVariable_length] at hl ⊢
    rw [cadd_of_lt (by omega), e]; omega

theorem elementSize_eq (e : Bytes) (h : (encElement e).length < 2 ^ 64) : elementSize e = (encElement e).length := by
  unfold encElement at h ⊢
  rw [List.length_append, writeVariable_length] at h ⊢
  exact cadd_of_lt h

theorem Witness.size_ok {w : Witness} (h : w.Sized) (p : Bool) (hl : (w.toData p).length < 2 ^ 64) :
    w.serializedSize p = (w.toData p).length := by
  have hd : w.toData p = (if p then writeVariable w.stack.length else []) ++ w.stack.flatMap encElement := rfl
  rw [hd, List.length_append] at hl ⊢
  have e : w.size = (w.stack.flatMap encElement).length := by
    rw [h]; exact sumSize_eq _ (by omega) fun e _ => elementSize_eq e
  cases p
  · simp [Witness.serializedSize, e]
  · simp only [if_true, writeVariable_length, Witness.serializedSize] at hl ⊢
    rw [cadd_of_lt (by omega), e]

theorem Point.size_ok (p : Point) : Point.size = p.toData.length := by
  simp [Point.size, Point.toData, p.hash.len, writeU32_length]

theorem Input.nominal_ok {i : Input} (h : i.Sized) (hl : i.toData.length < 2 ^ 64) :
    i.nominalSize = i.toData.length := by
  simp only [Input.toData, List.length_append, ← Point.size_ok, writeU32_length] at hl ⊢
  unfold Input.nominalSize
  rw [Script.size_ok h.1 true (by omega)]
  unfold Point.size at *
  rw [cadd_of_lt (a := 36) (by omega), cadd_of_lt (by omega)]; omega

theorem Input.witnessed_ok {i : Input} (h : i.Sized)
    (hl : (i.toData ++ i.witness.toData true).length < 2 ^ 64) :
    i.witnessedSize = (i.toData ++ i.witness.toData true).length := by
  rw [List.length_append] at hl ⊢
  unfold Input.witnessedSize
  rw [Input.nominal_ok h (by omega), Witness.size_ok h.2 true (by omega), cadd_of_lt (by omega)]

theorem Output.size_ok {o : Output} (h : o.Sized) (hl : o.toData.length < 2 ^ 64) : o.size = o.toData.length := by
  simp only [Output.toData, List.length_append, writeU64_length] at hl ⊢
  unfold Output.size
  rw [Script.size_ok h true (by omega), cadd_of_lt (by omega)]

theorem sum_map_add {α} (f g : α → Nat) (l : List α) :
    (l.map fun x => f x + g x).sum = (l.map f).sum + (l.map g).sum := by
  induction l with
  | nil => rfl
  | cons a l ih => simp only [List.map_cons, List.sum_cons, ih]; omega

theorem Tx.base_ok {t : Tx} (h : t.Sized) (hl : 8 + variableSize t.inputs.length + variableSize t.outputs.length +
      (t.outputs.flatMap Output.toData).length < 2 ^ 64) :
    t.baseSize = 8 + variableSize t.inputs.length + variableSize t.outputs.length +
      (t.outputs.flatMap Output.toData).length := by
  unfold Tx.baseSize
  rw [sumSize_eq (enc := Output.toData) t.outputs (by omega) fun o ho => Output.size_ok (h.2 o ho)]
  rw [cadd_of_lt (a := 8) (by omega), cadd_of_lt (a := 8 + _) (by omega), cadd_of_lt (by omega)]

theorem Tx.nominal_ok {t : Tx} (h : t.Sized) (hl : (t.toData false).length < 2 ^ 64) :
    t.nominalSize = (t.toData false).length := by
  simp only [Tx.toData, Bool.false_and, Bool.false_eq_true, if_false, List.nil_append, List.length_append,
    writeU32_length, writeVariable_length] at hl ⊢
  unfold Tx.nominalSize
  rw [Tx.base_ok h (by omega), sumSize_eq (enc := Input.toData) t.inputs (by omega) fun i hi => Input.nominal_ok (h.1 i hi),
    cadd_of_lt (by omega)]
  omega

theorem Tx.size_ok {t : Tx} (h : t.Sized) (w : Bool) (hl : (t.toData w).length < 2 ^ 64) :
    t.serializedSize w = (t.toData w).length := by
  cases hw : (w && t.segregated) with
  | false =>
    have e : t.toData w = t.toData false := by simp [Tx.toData, hw]
    rw [e] at hl ⊢
    rw [← Tx.nominal_ok h hl]
    simp [Tx.serializedSize, hw]
  | true =>
    unfold Tx.toData at hl ⊢
    simp only [hw, if_true, List.length_append, writeU32_length, writeVariable_length, List.length_cons,
      List.length_nil] at hl ⊢
    have hseg : t.segregated = true := by simp at hw; exact hw.2
    unfold Tx.serializedSize Tx.witnessedSize
    rw [if_pos hw, if_pos hseg]
    have hsum : (t.inputs.flatMap fun i => i.toData ++ i.witness.toData true).length =
        (t.inputs.flatMap Input.toData).length + (t.inputs.flatMap fun i => i.witness.toData true).length := by
      simp only [List.length_flatMap, List.length_append]
      exact sum_map_add (fun i : Input => i.toData.length) (fun i => (i.witness.toData true).length) t.inputs
    rw [Tx.base_ok h (by omega), sumSize_eq (enc := fun i => i.toData ++ i.witness.toData true) t.inputs (by omega)
      fun i hi => Input.witnessed_ok (h.1 i hi), cadd_of_lt (b := 2) (by omega), hsum, cadd_of_lt (by omega)]
    omega

theorem Header.size_ok (h : Header) : Header.size = h.toData.length := by
  simp [Header.size, Header.toData, writeU32_length, h.previous.len, h.merkleRoot.len]

theorem Block.size_ok {b : Block} (h : b.Sized) (w : Bool) (hl : (b.toData w).length < 2 ^ 64) :
    b.serializedSize w = (b.toData w).length := by
  simp only [Block.toData, List.length_append, ← Header.size_ok, writeVariable_length] at hl ⊢
  unfold Block.serializedSize
  rw [sumSize_eq (enc := fun t => t.toData w) b.txs (by omega) fun t ht => Tx.size_ok (h t ht) w,
    cadd_of_lt (a := Header.size) (by omega), cadd_of_lt (by omega)]
  omega

/-! ### the two parse modes of a transaction -/

theorem readElements_skip : ∀ (n : Nat) (s : RS), s.OK → (skipElements n s).2 = (readElements n s).2 ∧
    ((readElements n s).2.good = true → (skipElements n s).1 = (readElements n s).1.any (fun e => !e.isEmpty)) := by
  intro n
  induction n with
  | zero => intro s _; exact ⟨rfl, fun _ => rfl⟩
  | succ n ih =>
    intro s hs
    have hok1 := (tame_readSize maxBytes).ok s hs
    have hle := readSize_le maxBytes s
    have hlt : (readSize maxBytes s).1 < offMax := by have := maxBytes_lt; omega
    have hok2 := (tame_readBytes hlt).ok _ hok1
    have e1 : (skipElements (n + 1) s) =
      (((readSize maxBytes s).1 != 0) || (skipElements n (readBytes (readSize maxBytes s).1 (readSize maxBytes s).2).2).1,
        (skipElements n (readBytes (readSize maxBytes s).1 (readSize maxBytes s).2).2).2) := rfl
    have e2 : (readElements (n + 1) s) =
      ((readBytes (readSize maxBytes s).1 (readSize maxBytes s).2).1 ::
        (readElements n (readBytes (readSize maxBytes s).1 (readSize maxBytes s).2).2).1,
        (readElements n (readBytes (readSize maxBytes s).1 (readSize maxBytes s).2).2).2) := rfl
    rw [e1, e2]
    obtain ⟨i1, i2⟩ := ih _ hok2
    refine ⟨i1, fun hg => ?_⟩
    simp only at hg ⊢
    rw [i2 hg, List.any_cons]
    congr 1
    have hg2 : (readBytes (readSize maxBytes s).1 (readSize maxBytes s).2).2.good = true := by
      cases h : (readBytes (readSize maxBytes s).1 (readSize maxBytes s).2).2.good with
      | true => rfl
      | false => rw [(bwd_readElements n).tame.sticky _ h] at hg; cases hg
    obtain ⟨_, b, _, ⟨hx, hl⟩, _⟩ := (bwd_readBytes hlt).back _ hok1 hg2
    rw [hx, ← hl]
    cases b <;> simp

theorem witness_skip (s : RS) (hs : s.OK) : (Witness.skip s).2 = (Witness.read true s).2 ∧
    ((Witness.read true s).2.good = true →
      (Witness.skip s).1 = (Witness.read true s).1.stack.any (fun e => !e.isEmpty)) :=
  readElements_skip _ _ ((tame_readSize maxBytes).ok s hs)

theorem readWitnesses_skip : ∀ (is : List Input) (s : RS), s.OK →
    (skipWitnesses is s).2 = (readWitnesses is s).2 ∧
    ((readWitnesses is s).2.good = true → (skipWitnesses is s).1 = someElement (readWitnesses is s).1.1) := by
  intro is
  induction is with
  | nil => intro s _; exact ⟨rfl, fun _ => rfl⟩
  | cons i is ih =>
    intro s hs
    obtain ⟨w1, w2⟩ := witness_skip s hs
    have hok := bwd_witness.tame.ok s hs
    obtain ⟨i1, i2⟩ := ih _ hok
    have e1 : skipWitnesses (i :: is) s =
      ((Witness.skip s).1 || (skipWitnesses is (Witness.skip s).2).1, (skipWitnesses is (Witness.skip s).2).2) := rfl
    have e2 : readWitnesses (i :: is) s =
      (({ i with witness := (Witness.read true s).1 } :: (readWitnesses is (Witness.read true s).2).1.1,
        !(Witness.read true s).1.stack.isEmpty || (readWitnesses is (Witness.read true s).2).1.2),
        (readWitnesses is (Witness.read true s).2).2) := rfl
    rw [e1, e2, w1]
    refine ⟨i1, fun hg => ?_⟩
    simp only at hg ⊢
    have hg2 : (Witness.read true s).2.good = true := by
      cases h : (Witness.read true s).2.good with
      | true => rfl
      | false => rw [(bwd_readWitnesses is).tame.sticky _ h] at hg; cases hg
    rw [w2 hg2, i2 hg]
    rfl

theorem tame_skipWitnesses (is : List Input) : Tame (skipWitnesses is) := by
  have t := (bwd_readWitnesses is).tame
  exact ⟨fun s hs => by rw [(readWitnesses_skip is s hs).1]; exact t.ok s hs,
    fun s hs => by rw [(readWitnesses_skip is s hs).1]; exact t.data s hs,
    fun s hs => by rw [(readWitnesses_skip is s hs).1]; exact t.ub s hs,
    fun s hs => by
      induction is generalizing s with
      | nil => exact hs
      | cons i is ih =>
        refine ih (bwd_readWitnesses is).tame _ ?_
        have hse : ∀ n s, s.good = false → (skipElements n s).2.good = false := by
          intro n
          induction n with
          | zero => intro s h; exact h
          | succ n ih2 =>
            intro s h
            exact ih2 _ ((tame_readBytes (Nat.lt_of_le_of_lt (readSize_le maxBytes s) maxBytes_lt)).sticky _
              ((tame_readSize maxBytes).sticky s h))
        exact hse _ _ ((tame_readSize maxBytes).sticky s hs)⟩

theorem tame_invalidateIf (b : Bool) : Tame (invalidateIf b) := (bwd_invalidateIf b).tame

theorem tame_tx (w : Bool) : Tame (Tx.read w) := by
  cases w with
  | true => exact bwd_tx.tame
  | false =>
    rw [Tx.read_eq]
    refine bwd_readU32.tame.bind fun v => bwd_inputs.tame.bind fun is => (tame_detect is).bind fun d => Tame.ite ?_ ?_
    · unfold txWitnessed
      refine bwd_doSkip_one.tame.bind fun _ => bwd_inputs.tame.bind fun is => bwd_outputs.tame.bind fun os =>
        Tame.bind (((tame_skipWitnesses is).bind fun f => .pure _)) fun r => (tame_invalidateIf _).bind fun _ =>
        bwd_readU32.tame.bind fun l => tame_isGood.bind fun g => .pure _
    · exact (bwd_txPlain v is).tame

theorem tame_readN {α} {p : Reader α} (h : Tame p) : ∀ n, Tame (readN p n)
  | 0 => .pure _
  | n + 1 => h.bind fun _ => (tame_readN h n).bind fun _ => .pure _

theorem tame_block (w : Bool) : Tame (Block.read w) :=
  bwd_header.tame.bind fun _ => ((tame_readSize maxCount).bind fun n => tame_readN (tame_tx w) n).bind fun _ =>
    tame_isGood.bind fun _ => .pure _

theorem readN_witness : ∀ (n : Nat) (s : RS), ∀ i ∈ (readN Input.read n s).1, i.witness = Witness.empty := by
  intro n
  induction n with
  | zero => intro s i hi; cases hi
  | succ n ih =>
    intro s i hi
    rcases List.mem_cons.mp (show i ∈ (Input.read s).1 :: (readN Input.read n (Input.read s).2).1 from hi) with rfl | h
    · rfl
    · exact ih _ i h

theorem strip_readPuts (s : RS) : (readPuts Input.read s).1.map (fun i => { i with witness := Witness.empty }) =
    (readPuts Input.read s).1 := by
  conv => rhs; rw [← List.map_id (readPuts Input.read s).1]
  refine List.map_congr_left fun i hi => ?_
  have := readN_witness _ _ i hi
  cases i
  simp only at this
  simp [this]

theorem strip_readWitnesses : ∀ (is : List Input) (s : RS),
    (readWitnesses is s).1.1.map (fun i => { i with witness := Witness.empty }) =
      is.map (fun i => { i with witness := Witness.empty }) := by
  intro is
  induction is with
  | nil => intro s; rfl
  | cons i is ih =>
    intro s
    show _ :: (readWitnesses is (Witness.read true s).2).1.1.map _ = _
    rw [ih]; rfl

/-- Everything after the outputs of a witness-marked transaction. -/
def txTail (version : UInt32) (w : Bool) (inputs : List Input) (outputs : List Output) : Reader Tx := do
  let r ← (if w then readWitnesses inputs
           else do let f ← skipWitnesses inputs; return (inputs, f))
  invalidateIf (!r.2)
  let locktime ← readU32
  let valid ← isGood
  return { version, inputs := r.1, outputs, locktime, segregated := w, valid }

theorem readWitnesses_flag : ∀ (is : List Input) (s : RS),
    (readWitnesses is s).1.2 = segregatedInputs (readWitnesses is s).1.1 := by
  intro is
  induction is with
  | nil => intro s; rfl
  | cons i is ih =>
    intro s
    show (!(Witness.read true s).1.stack.isEmpty || (readWitnesses is (Witness.read true s).2).1.2) =
      (!(Witness.read true s).1.stack.isEmpty || segregatedInputs (readWitnesses is (Witness.read true s).2).1.1)
    rw [ih]

theorem some_of_element {is : List Input} (h : someElement is = true) : segregatedInputs is = true := by
  unfold someElement at h
  unfold segregatedInputs
  rw [List.any_eq_true] at h ⊢
  obtain ⟨i, hi, h⟩ := h
  refine ⟨i, hi, ?_⟩
  cases hs : i.witness.stack with
  | nil => rw [hs] at h; simp at h
  | cons a l => rfl

theorem txTail_false (version : UInt32) (inputs : List Input) (outputs : List Output) (s : RS) (hs : s.OK)
    (hin : inputs.map (fun i => { i with witness := Witness.empty }) = inputs)
    (hg : (txTail version false inputs outputs s).2.good = true) :
    (txTail version true inputs outputs s).2 = (txTail version false inputs outputs s).2 ∧
    (txTail version true inputs outputs s).1.stripped = (txTail version false inputs outputs s).1 ∧
    someElement (txTail version true inputs outputs s).1.inputs = true := by
  obtain ⟨k1, k2⟩ := readWitnesses_skip inputs s hs
  have e0 : ∀ (r : (List Input × Bool)) (w : Bool) (s : RS), (do
      invalidateIf (!r.2)
      let locktime ← readU32
      let valid ← isGood
      return ({ version, inputs := r.1, outputs, locktime, segregated := w, valid } : Tx) : Reader Tx) s =
      (⟨version, r.1, outputs, (readU32 (invalidateIf (!r.2) s).2).1, w, (readU32 (invalidateIf (!r.2) s).2).2.good⟩,
        (readU32 (invalidateIf (!r.2) s).2).2) := fun r w s => rfl
  have e1 : txTail version false inputs outputs s = _ :=
    (show _ = _ from e0 (inputs, (skipWitnesses inputs s).1) false (skipWitnesses inputs s).2)
  have e2 : txTail version true inputs outputs s = _ :=
    (show _ = _ from e0 (readWitnesses inputs s).1 true (readWitnesses inputs s).2)
  rw [e1] at hg ⊢
  rw [e2]
  simp only at hg ⊢
  have hi : (invalidateIf (!(skipWitnesses inputs s).1) (skipWitnesses inputs s).2).2.good = true := by
    cases h : (invalidateIf (!(skipWitnesses inputs s).1) (skipWitnesses inputs s).2).2.good with
    | true => rfl
    | false => rw [bwd_readU32.tame.sticky _ h] at hg; cases hg
  have hf : (skipWitnesses inputs s).1 = true := by
    cases h : (skipWitnesses inputs s).1 with
    | true => rfl
    | false => rw [h] at hi; cases hi
  rw [hf] at hi hg ⊢
  have hw : (readWitnesses inputs s).2.good = true := by rw [← k1]; exact hi
  have hse : someElement (readWitnesses inputs s).1.1 = true := by rw [← k2 hw, hf]
  have hfl : (readWitnesses inputs s).1.2 = true := by rw [readWitnesses_flag, some_of_element hse]
  rw [hfl, k1]
  refine ⟨rfl, ?_, hse⟩
  unfold Tx.stripped
  simp only [strip_readWitnesses, hin]

theorem txTail_true (version : UInt32) (inputs : List Input) (outputs : List Output) (s : RS) (hs : s.OK)
    (hg : (txTail version true inputs outputs s).2.good = true)
    (hse : someElement (txTail version true inputs outputs s).1.inputs = true) :
    (txTail version false inputs outputs s).2.good = true := by
  obtain ⟨k1, k2⟩ := readWitnesses_skip inputs s hs
  have hw : (readWitnesses inputs s).2.good = true := by
    cases h : (readWitnesses inputs s).2.good with
    | true => rfl
    | false =>
      have hk := bwd_readU32.tame.sticky _ ((tame_invalidateIf (!(readWitnesses inputs s).1.2)).sticky _ h)
      rw [show (txTail version true inputs outputs s).2 =
        (readU32 (invalidateIf (!(readWitnesses inputs s).1.2) (readWitnesses inputs s).2).2).2 from rfl, hk] at hg
      cases hg
  have hse2 : someElement (readWitnesses inputs s).1.1 = true := hse
  have hf := k2 hw
  rw [hse2] at hf
  have hfl : (readWitnesses inputs s).1.2 = true := by rw [readWitnesses_flag, some_of_element hse2]
  rw [show (txTail version true inputs outputs s).2 =
    (readU32 (invalidateIf (!(readWitnesses inputs s).1.2) (readWitnesses inputs s).2).2).2 from rfl, hfl] at hg
  rw [show (txTail version false inputs outputs s).2 =
    (readU32 (invalidateIf (!(skipWitnesses inputs s).1) (skipWitnesses inputs s).2).2).2 from rfl, hf, k1]
  exact hg

theorem Tx.read_cases (s : RS) (hs : s.OK) :
    (∃ (t : Tx), t.segregated = false ∧ t.stripped = t ∧ ∃ s', Tx.read true s = (t, s') ∧ Tx.read false s = (t, s')) ∨
    ∃ version inputs outputs s', s'.OK ∧ inputs.map (fun i => { i with witness := Witness.empty }) = inputs ∧
      ∀ w, Tx.read w s = txTail version w inputs outputs s' := by
  let v := readU32 s
  let a := readPuts Input.read v.2
  let d := detectWitness a.1 a.2
  have hv : v.2.OK := bwd_readU32.tame.ok s hs
  have ha : a.2.OK := bwd_inputs.tame.ok _ hv
  have hd : d.2.OK := (tame_detect a.1).ok _ ha
  have e : ∀ w, Tx.read w s = (if d.1 = true then txWitnessed v.1 w else txPlain v.1 a.1) d.2 := fun w => rfl
  by_cases h : d.1 = true
  · right
    let k := doSkip 1 d.2
    let b := readPuts Input.read k.2
    let o := readPuts Output.read b.2
    have hk : k.2.OK := bwd_doSkip_one.tame.ok _ hd
    have hb : b.2.OK := bwd_inputs.tame.ok _ hk
    have ho : o.2.OK := bwd_outputs.tame.ok _ hb
    refine ⟨v.1, b.1, o.1, o.2, ho, strip_readPuts _, fun w => ?_⟩
    rw [e, if_pos h]; rfl
  · left
    refine ⟨(txPlain v.1 a.1 d.2).1, rfl, ?_, (txPlain v.1 a.1 d.2).2, ?_, ?_⟩
    · show Tx.stripped ⟨_, _, _, _, _, _⟩ = _
      unfold Tx.stripped
      simp only [a, strip_readPuts]
      rfl
    · rw [e, if_neg h]
    · rw [e, if_neg h]

end Verif
