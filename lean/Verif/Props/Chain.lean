import Verif.Props.Script
/-!
# Properties C08 – C11: transactions, headers and blocks on the wire

`Tx.read true (RS.init d)` is `transaction(d, true)`; `(…).2.good` and `.1.valid` say whether parsing succeeded;
`eqv` is the library's `operator==`.
-/
namespace Verif

theorem init_unl {d : Bytes} (h : d.length < 2 ^ 63) : (RS.init d).Unl := by
  have hmax : maxSize = 2 ^ 64 - 1 := rfl
  show d.length - 0 ≤ maxSize
  omega

theorem init_rest (d : Bytes) : (RS.init d).rest = d := rfl

/-! ## C08 -/

/-- A well-formed transaction, serialized with witnesses and followed by anything, parses back to an equal valid
transaction, consuming exactly its bytes, and the result serializes to the same bytes. -/
theorem C08_roundtrip (t : Tx) (h : t.Writable) (rest : Bytes) (hl : (t.toData true ++ rest).length < 2 ^ 63) :
    let r := Tx.read true (RS.init (t.toData true ++ rest))
    r.1.valid = true ∧ r.1.eqv t = true ∧ r.1.toData true = t.toData true ∧ r.2.good = true ∧
    r.2.rest = rest ∧ r.2.ub = false := by
  obtain ⟨h1, h2⟩ := fwd_tx h (RS.init (t.toData true ++ rest)) (init_ok hl) rfl (init_unl hl) (List.prefix_append _ _)
  obtain ⟨g1, bs, hp, ⟨k1, k2, rfl⟩, k4⟩ := bwd_tx.back _ (init_ok hl) (init_unl hl) h2.good
  refine ⟨by rw [h1]; rfl, by rw [h1]; exact Tx.eqv_norm h.segregated, ?_, h2.good, ?_, h2.ub⟩
  · rw [init_rest] at hp
    have hlen : ((Tx.read true (RS.init (t.toData true ++ rest))).1.toData true).length = (t.toData true).length := by
      have := k4.pos; rw [h2.pos] at this; omega
    have hp2 := List.prefix_of_prefix_length_le hp (List.prefix_append _ _) (by omega)
    exact hp2.eq_of_length hlen
  · rw [h2.rest, init_rest, List.drop_left]

/-- Every transaction built by the public constructor from writable scripts and witnesses, with at least one
input, meets the hypothesis of `C08_roundtrip`. -/
theorem C08_constructed_is_writable (version : UInt32) (inputs : List Input) (outputs : List Output)
    (locktime : UInt32) (hne : inputs ≠ []) (hi : inputs.length ≤ 1000000) (ho : outputs.length ≤ 1000000)
    (his : ∀ i ∈ inputs, i.script.Writable ∧ i.witness.Writable) (hos : ∀ o ∈ outputs, o.script.Writable) :
    (Tx.make version inputs outputs locktime).Writable :=
  ⟨fun i h => (his i h).1, hos, hi, ho, fun _ i h => (his i h).2, rfl, fun h => absurd h hne⟩

/-- Any bytes the parser accepts, at any position of any buffer, are exactly the serialization of the transaction
it returns: no two wire forms give the same object, so hashing the object equals hashing the wire bytes. -/
theorem C08_canonical (s : RS) (hpos : s.pos ≤ s.data.length) (hlen : s.data.length < 2 ^ 63)
    (hlim : s.rem = maxSize) (hgood : (Tx.read true s).2.good = true) :
    s.rest = (Tx.read true s).1.toData true ++ (Tx.read true s).2.rest ∧ (Tx.read true s).1.Writable ∧
      (Tx.read true s).1.valid = true := by
  have hmax : maxSize = 2 ^ 64 - 1 := rfl
  have hu : s.Unl := by unfold RS.Unl; omega
  obtain ⟨g1, bs, hp, ⟨k1, k2, rfl⟩, k4⟩ := bwd_tx.back s ⟨hpos, hlen⟩ hu hgood
  refine ⟨?_, k1, by rw [k2]; rfl⟩
  rw [k4.rest]
  obtain ⟨x, hx⟩ := hp
  conv => rhs; rw [← hx, List.drop_left]
  exact hx.symm

/-- Parsing never leaves the reader's contract, whatever the bytes (both witness modes). -/
theorem C08_parse_safe (d : Bytes) (hd : d.length < 2 ^ 63) (w : Bool) :
    let r := Tx.read w (RS.init d)
    r.2.ub = false ∧ r.2.pos ≤ d.length ∧ r.2.data = d := by
  have hs := init_ok hd
  have h1 := (tame_tx w).ok _ hs
  have h2 := (tame_tx w).data _ hs
  have := h1.wf
  rw [h2] at this
  exact ⟨(tame_tx w).ub _ hs, this, h2⟩

/-- Distinct (unequal) well-formed transactions never share a serialization. -/
theorem C08_injective (a b : Tx) (ha : a.Writable) (hb : b.Writable) (hl : (a.toData true).length < 2 ^ 63)
    (h : a.toData true = b.toData true) : a.norm = b.norm := by
  have e1 := (fwd_tx ha (RS.init (a.toData true)) (init_ok hl) rfl (init_unl hl) (by rw [init_rest]; exact List.prefix_refl _)).1
  have e2 := (fwd_tx hb (RS.init (a.toData true)) (init_ok hl) rfl (init_unl hl) (by rw [init_rest, h]; exact List.prefix_refl _)).1
  exact e1.symm.trans e2

/-- The hypothesis on the input count is needed: a transaction with no inputs and one output is read back as
something else, because its output count is taken for the witness flag. -/
theorem C08_ambiguous_counterexample :
    let t := Tx.make 1 [] [{ value := 0, script := Script.ofOps [] }] 0
    (Tx.read true (RS.init (t.toData true))).1.eqv t = false := by rfl

/-- Non-vacuity: a transaction with one input carrying a witness. -/
def exampleTx : Tx :=
  Tx.make 2 [{ point := { hash := nullHash, index := 7 }, script := Script.ofOps [{ code := 2, data := [5, 6] }],
               witness := Witness.ofStack [[1], []], sequence := 3 }]
    [{ value := 5000, script := Script.ofOps [{ code := 172 }] }] 9

theorem exampleTx_writable : exampleTx.Writable := by
  refine C08_constructed_is_writable _ _ _ _ (by simp) (by decide) (by decide) ?_ ?_
  · intro i hi
    simp only [List.mem_cons, List.not_mem_nil, or_false] at hi
    subst hi
    exact ⟨⟨.cons _ _ ⟨rfl, by simp [SizeFits], by decide⟩ .nil, rfl⟩, ⟨by decide, by decide⟩⟩
  · intro o ho
    simp only [List.mem_cons, List.not_mem_nil, or_false] at ho
    subst ho
    exact ⟨.cons _ _ ⟨rfl, by simp [SizeFits], by decide⟩ .nil, rfl⟩

example : (exampleTx.toData true).length = 70 ∧ exampleTx.segregated = true := by decide

/-! ## C09 -/

/-- The size a script reports is the length of what it writes. -/
theorem C09_script_size (sc : Script) (h : sc.Sized) (p : Bool) (hl : (sc.toData p).length < 2 ^ 64) :
    sc.serializedSize p = (sc.toData p).length := Script.size_ok h p hl

theorem C09_witness_size (w : Witness) (h : w.Sized) (p : Bool) (hl : (w.toData p).length < 2 ^ 64) :
    w.serializedSize p = (w.toData p).length := Witness.size_ok h p hl

theorem C09_point_size (p : Point) : Point.size = p.toData.length := p.size_ok

theorem C09_input_size (i : Input) (h : i.Sized) (hl : (i.toData ++ i.witness.toData true).length < 2 ^ 64) :
    i.nominalSize = i.toData.length ∧ i.witnessedSize = i.toData.length + (i.witness.toData true).length := by
  refine ⟨Input.nominal_ok h ?_, ?_⟩
  · rw [List.length_append] at hl; omega
  · rw [Input.witnessed_ok h hl, List.length_append]

theorem C09_output_size (o : Output) (h : o.Sized) (hl : o.toData.length < 2 ^ 64) : o.size = o.toData.length :=
  Output.size_ok h hl

theorem C09_transaction_size (t : Tx) (h : t.Sized) (w : Bool) (hl : (t.toData w).length < 2 ^ 64) :
    t.serializedSize w = (t.toData w).length := Tx.size_ok h w hl

theorem C09_header_size (h : Header) : Header.size = h.toData.length ∧ Header.size = 80 := ⟨h.size_ok, rfl⟩

theorem C09_block_size (b : Block) (h : b.Sized) (w : Bool) (hl : (b.toData w).length < 2 ^ 64) :
    b.serializedSize w = (b.toData w).length := Block.size_ok h w hl

theorem ceilDiv_four (n : Nat) : ceilDiv n 4 = (n + 3) / 4 := rfl

/-- Weight is three times the stripped length plus the full length; virtual size is a quarter of it, rounded up. -/
theorem C09_transaction_weight (t : Tx) (h : t.Sized) (hl : (t.toData true).length < 2 ^ 61)
    (hn : (t.toData false).length < 2 ^ 61) :
    t.weight = 3 * (t.toData false).length + (t.toData true).length ∧
    t.weight ≤ 4 * t.virtualSize ∧ 4 * t.virtualSize < t.weight + 4 := by
  have hmax : maxSize = 2 ^ 64 - 1 := rfl
  have e : t.weight = 3 * (t.toData false).length + (t.toData true).length := by
    unfold Tx.weight cadd cmul
    rw [Tx.size_ok h false (by omega), Tx.size_ok h true (by omega)]
    omega
  refine ⟨e, ?_⟩
  unfold Tx.virtualSize
  rw [ceilDiv_four]
  omega

theorem C09_block_weight (b : Block) (h : b.Sized) (hl : (b.toData true).length < 2 ^ 61)
    (hn : (b.toData false).length < 2 ^ 61) :
    b.weight = 3 * (b.toData false).length + (b.toData true).length ∧
    b.weight ≤ 4 * b.virtualSize ∧ 4 * b.virtualSize < b.weight + 4 := by
  have hmax : maxSize = 2 ^ 64 - 1 := rfl
  have e : b.weight = 3 * (b.toData false).length + (b.toData true).length := by
    unfold Block.weight cadd cmul
    rw [Block.size_ok h false (by omega), Block.size_ok h true (by omega)]
    omega
  refine ⟨e, ?_⟩
  unfold Block.virtualSize
  rw [ceilDiv_four]
  omega

theorem Script.Writable.sized {s : Script} (h : s.Writable) (hl : (opsData s.ops).length < 2 ^ 64) : s.Sized :=
  h.size.trans (opsSize_eq _ hl).symm

/-- Objects obtained by parsing have their size caches set as the size theorems require. -/
theorem C09_parsed_is_sized (d : Bytes) (hd : d.length < 2 ^ 63) (hg : (Tx.read true (RS.init d)).2.good = true) :
    (Tx.read true (RS.init d)).1.Sized := by
  obtain ⟨h1, h2, _⟩ := C08_canonical (RS.init d) (Nat.zero_le _) hd rfl hg
  obtain ⟨_, _, _, ⟨_, hn, _⟩, _⟩ := bwd_tx.back _ (init_ok hd) (init_unl hd) hg
  generalize (Tx.read true (RS.init d)).1 = t at *
  rw [init_rest] at h1
  have hl : (t.toData true).length < 2 ^ 63 := by
    have := congrArg List.length h1; rw [List.length_append] at this; omega
  unfold Tx.toData at hl
  simp only [List.length_append] at hl
  have mem_le : ∀ {α} (f : α → Bytes) (l : List α) (x : α), x ∈ l → (f x).length ≤ (l.flatMap f).length := by
    intro α f l x hx
    induction l with
    | nil => cases hx
    | cons a l ih =>
      rw [List.flatMap_cons, List.length_append]
      rcases List.mem_cons.mp hx with rfl | hx
      · omega
      · have := ih hx; omega
  refine ⟨fun i hi => ⟨(h2.inScripts i hi).sized ?_, ?_⟩, fun o ho => (h2.outScripts o ho).sized ?_⟩
  · have := mem_le Input.toData _ i hi
    simp only [Input.toData, Script.toData, List.length_append] at this
    omega
  · have hw : i ∈ t.norm.inputs := by rw [← hn]; exact hi
    obtain ⟨j, _, rfl⟩ := List.mem_map.mp hw
    unfold Input.norm
    cases t.segregated
    · show (0 : Nat) = stackSize []
      rfl
    · show stackSize _ = stackSize _
      rfl
  · have := mem_le Output.toData _ o ho
    simp only [Output.toData, Script.toData, List.length_append] at this
    omega

example : exampleTx.Sized ∧ exampleTx.weight = 3 * 64 + 70 := by
  refine ⟨⟨?_, ?_⟩, by decide⟩
  · intro i hi
    simp only [exampleTx, Tx.make, List.mem_cons, List.not_mem_nil, or_false] at hi
    subst hi
    exact ⟨rfl, rfl⟩
  · intro o ho
    simp only [exampleTx, Tx.make, List.mem_cons, List.not_mem_nil, or_false] at ho
    subst ho
    rfl

/-! ## C10 -/

/-- A header occupies exactly 80 bytes and round-trips. -/
theorem C10_header_roundtrip (h : Header) (rest : Bytes) (hl : (h.toData ++ rest).length < 2 ^ 63) :
    let r := Header.read (RS.init (h.toData ++ rest))
    h.toData.length = 80 ∧ r.1.valid = true ∧ r.1.eqv h = true ∧ r.1.toData = h.toData ∧ r.2.good = true ∧
    r.2.rest = rest := by
  obtain ⟨h1, h2⟩ := fwd_header h (RS.init (h.toData ++ rest)) (init_ok hl) rfl (init_unl hl) (List.prefix_append _ _)
  refine ⟨by rw [← h.size_ok]; rfl, by rw [h1]; rfl, by rw [h1]; exact h.eqv_norm, by rw [h1]; rfl, h2.good, ?_⟩
  rw [h2.rest, init_rest, List.drop_left]

/-- Any 80 bytes are a header that serializes to them. -/
theorem C10_header_canonical (s : RS) (hpos : s.pos ≤ s.data.length) (hlen : s.data.length < 2 ^ 63)
    (hlim : s.rem = maxSize) (hgood : (Header.read s).2.good = true) :
    s.rest = (Header.read s).1.toData ++ (Header.read s).2.rest := by
  have hmax : maxSize = 2 ^ 64 - 1 := rfl
  have hu : s.Unl := by unfold RS.Unl; omega
  obtain ⟨g1, bs, hp, ⟨_, rfl⟩, k4⟩ := bwd_header.back s ⟨hpos, hlen⟩ hu hgood
  rw [k4.rest]
  obtain ⟨x, hx⟩ := hp
  conv => rhs; rw [← hx, List.drop_left]
  exact hx.symm

/-- A block of well-formed transactions round-trips. -/
theorem C10_block_roundtrip (b : Block) (h : b.Writable) (rest : Bytes) (hl : (b.toData true ++ rest).length < 2 ^ 63) :
    let r := Block.read true (RS.init (b.toData true ++ rest))
    r.1.valid = true ∧ r.1.eqv b = true ∧ r.1.toData true = b.toData true ∧ r.2.good = true ∧
    r.2.rest = rest ∧ r.2.ub = false := by
  obtain ⟨h1, h2⟩ := fwd_block h (RS.init (b.toData true ++ rest)) (init_ok hl) rfl (init_unl hl) (List.prefix_append _ _)
  obtain ⟨g1, bs, hp, ⟨k1, k2, rfl⟩, k4⟩ := bwd_block.back _ (init_ok hl) (init_unl hl) h2.good
  refine ⟨by rw [h1]; rfl, by rw [h1]; exact Block.eqv_norm fun t ht => (h.txs t ht).segregated, ?_, h2.good, ?_, h2.ub⟩
  · rw [init_rest] at hp
    have hlen : ((Block.read true (RS.init (b.toData true ++ rest))).1.toData true).length = (b.toData true).length := by
      have := k4.pos; rw [h2.pos] at this; omega
    have hp2 := List.prefix_of_prefix_length_le hp (List.prefix_append _ _) (by omega)
    exact hp2.eq_of_length hlen
  · rw [h2.rest, init_rest, List.drop_left]

/-- Bytes accepted as a block are exactly its serialization. -/
theorem C10_block_canonical (s : RS) (hpos : s.pos ≤ s.data.length) (hlen : s.data.length < 2 ^ 63)
    (hlim : s.rem = maxSize) (hgood : (Block.read true s).2.good = true) :
    s.rest = (Block.read true s).1.toData true ++ (Block.read true s).2.rest ∧ (Block.read true s).1.Writable := by
  have hmax : maxSize = 2 ^ 64 - 1 := rfl
  have hu : s.Unl := by unfold RS.Unl; omega
  obtain ⟨g1, bs, hp, ⟨k1, _, rfl⟩, k4⟩ := bwd_block.back s ⟨hpos, hlen⟩ hu hgood
  refine ⟨?_, k1⟩
  rw [k4.rest]
  obtain ⟨x, hx⟩ := hp
  conv => rhs; rw [← hx, List.drop_left]
  exact hx.symm

/-- Block parsing never leaves the reader's contract, whatever the bytes (both witness modes). -/
theorem C10_block_parse_safe (d : Bytes) (hd : d.length < 2 ^ 63) (w : Bool) :
    let r := Block.read w (RS.init d)
    r.2.ub = false ∧ r.2.pos ≤ d.length ∧ r.2.data = d := by
  have hs := init_ok hd
  have h1 := (tame_block w).ok _ hs
  have h2 := (tame_block w).data _ hs
  have := h1.wf
  rw [h2] at this
  exact ⟨(tame_block w).ub _ hs, this, h2⟩

def exampleBlock : Block :=
  { header := { version := 1, previous := nullHash, merkleRoot := nullHash, timestamp := 2, bits := 3, nonce := 4 },
    txs := [exampleTx, exampleTx] }

example : exampleBlock.Writable :=
  ⟨by decide, fun t ht => by
    simp only [exampleBlock, List.mem_cons, List.not_mem_nil, or_false, or_self] at ht
    subst ht; exact exampleTx_writable⟩

/-! ## C11 -/

/-- On input starting with `bs` the reading procedure fails. -/
def FailU {α} (p : Reader α) (bs : Bytes) : Prop :=
  ∀ s : RS, s.OK → s.good = true → s.Unl → bs <+: s.rest → (p s).2.good = false

theorem FailU.bind {α β} {p : Reader α} {f : α → Reader β} {a b : Bytes} {x : α}
    (hp : FwdU p a x) (hf : FailU (f x) b) : FailU (p >>= f) (a ++ b) := by
  intro s hs hg hu hv
  have ha : a <+: s.rest := (List.prefix_append a b).trans hv
  obtain ⟨h1, h2⟩ := hp s hs hg hu ha
  rw [bind_run, h1]
  exact hf (p s).2 (h2.ok hs ha.length_le) (h2.good.trans hg) h2.unl (by rw [h2.rest]; exact prefix_drop hv)

theorem FailU.congr {α} {p : Reader α} {a b : Bytes} (h : FailU p a) (hab : a = b) : FailU p b := hab ▸ h

/-- The BIP144 form of a transaction: version, marker, flag, puts, one witness per input, locktime — written out
whether or not any input has a witness. -/
def bip144 (t : Tx) : Bytes :=
  writeU32 t.version ++ (0 :: 1 :: (writeVariable t.inputs.length ++ (t.inputs.flatMap Input.toData ++
    (writeVariable t.outputs.length ++ (t.outputs.flatMap Output.toData ++
    (t.inputs.flatMap (fun i => i.witness.toData true) ++ writeU32 t.locktime))))))

theorem tx_valid_eq_good (w : Bool) (s : RS) : (Tx.read w s).1.valid = (Tx.read w s).2.good := by
  have h1 : ∀ v i s, (txPlain v i s).1.valid = (txPlain v i s).2.good := fun _ _ _ => rfl
  have h2 : ∀ v w s, (txWitnessed v w s).1.valid = (txWitnessed v w s).2.good := fun _ _ _ => rfl
  have e : ∃ (c : Bool) (v : UInt32) (i : List Input) (s' : RS),
      Tx.read w s = (if c = true then txWitnessed v w else txPlain v i) s' := ⟨_, _, _, _, rfl⟩
  obtain ⟨c, v, i, s', e⟩ := e
  rw [e]
  cases c
  · exact h1 v i s'
  · exact h2 v w s'

/-- The library's own serializer emits the BIP144 form exactly for transactions it considers segregated. -/
theorem C11_bip144_is_segregated_form (t : Tx) (h : t.segregated = true) : t.toData true = bip144 t := by
  simp [Tx.toData, bip144, h]

/-- Validity never depends on the mode in the one direction: whatever parses with witnesses skipped also parses
with witnesses kept, gives the same transaction up to the witnesses, and stops at the same place. -/
theorem C11_skip_implies_keep (d : Bytes) (hd : d.length < 2 ^ 63)
    (hg : (Tx.read false (RS.init d)).2.good = true) :
    (Tx.read true (RS.init d)).2 = (Tx.read false (RS.init d)).2 ∧
    (Tx.read true (RS.init d)).1.stripped = (Tx.read false (RS.init d)).1 := by
  rcases Tx.read_cases (RS.init d) (init_ok hd) with ⟨t, _, ht, s', h1, h2⟩ | ⟨v, i, o, s', hs', hi, h⟩
  · rw [h1, h2]; exact ⟨rfl, ht⟩
  · rw [h] at hg ⊢
    rw [h]
    obtain ⟨a, b, _⟩ := txTail_false v i o s' hs' hi hg
    exact ⟨a, b⟩

/-- The witness-marked form of a transaction none of whose inputs has a witness element is rejected, in both modes. -/
theorem C11_superfluous_rejected (t : Tx) (his : ∀ i ∈ t.inputs, i.script.Writable ∧ i.witness.stack = [])
    (hos : ∀ o ∈ t.outputs, o.script.Writable) (hi : t.inputs.length ≤ 1000000) (ho : t.outputs.length ≤ 1000000)
    (rest : Bytes) (hl : (bip144 t ++ rest).length < 2 ^ 63) (w : Bool) :
    (Tx.read w (RS.init (bip144 t ++ rest))).2.good = false ∧
    (Tx.read w (RS.init (bip144 t ++ rest))).1.valid = false := by
  have hin : ∀ i ∈ t.inputs, FwdU Input.read i.toData i.norm0 := fun i hi => fwd_input (his i hi).1
  have hout : ∀ o ∈ t.outputs, FwdU Output.read o.toData o.norm := fun o ho => fwd_output (hos o ho)
  have hI := fwd_readPuts t.inputs hi hin
  have hO := fwd_readPuts t.outputs ho hout
  have hw := fwd_readWitnesses t.inputs fun i hi => ⟨by rw [(his i hi).2]; decide, by rw [(his i hi).2]; simp⟩
  have hany : segregatedInputs t.inputs = false := by
    unfold segregatedInputs
    rw [List.any_eq_false]
    intro i hi; rw [(his i hi).2]; simp
  rw [hany] at hw
  have h0 := fwd_readPuts (p := Input.read) (enc := Input.toData) (g := Input.norm0) [] (by decide) (by simp)
  have key : FailU (Tx.read true) (bip144 t) := by
    unfold Tx.read bip144
    refine FailU.bind (fwd_readU32 t.version).U ?_
    refine (FailU.bind h0 (b := 1 :: (writeVariable t.inputs.length ++ (t.inputs.flatMap Input.toData ++
      (writeVariable t.outputs.length ++ (t.outputs.flatMap Output.toData ++
      (t.inputs.flatMap (fun i => i.witness.toData true) ++ writeU32 t.locktime)))))) ?_).congr
      (by simp [writeVariable_zero])
    have tail : FailU (do
        doSkip 1
        let inputs ← readPuts Input.read
        let outputs ← readPuts Output.read
        let r ← readWitnesses inputs
        invalidateIf (!r.2)
        let locktime ← readU32
        let valid ← isGood
        return ({ version := t.version, inputs := r.1, outputs, locktime, segregated := true, valid } : Tx) : Reader Tx)
        (1 :: (writeVariable t.inputs.length ++ (t.inputs.flatMap Input.toData ++
      (writeVariable t.outputs.length ++ (t.outputs.flatMap Output.toData ++
      (t.inputs.flatMap (fun i => i.witness.toData true) ++ writeU32 t.locktime)))))) := by
      refine (FailU.bind (doSkip_one_fwd 1).U (FailU.bind hI (FailU.bind hO (FailU.bind hw (b := writeU32 t.locktime) ?_)))).congr (by simp)
      intro s hs _ _ _
      exact bwd_readU32.tame.sticky _ rfl
    intro s hs hg hu hp
    have hrem : s.rem ≠ 0 := by
      have hl := hp.length_le
      rw [s.rest_length] at hl
      simp only [List.length_cons] at hl
      unfold RS.Unl at hu; omega
    have hd : detectWitness [] s = (true, s) := by
      have hl := hp.length_le
      rw [s.rest_length] at hl
      simp only [List.length_cons] at hl
      unfold detectWitness peekByte
      simp only [List.length_nil, if_true, hrem, if_false, hg, Bool.true_and, decide_eq_true_eq]
      rw [if_pos (by omega)]
      obtain ⟨t, ht⟩ := hp
      rw [← ht]; rfl
    rw [List.map_nil, bind_run, hd]
    simp only [if_true]
    exact tail s hs hg hu hp
  have hT := key (RS.init (bip144 t ++ rest)) (init_ok hl) rfl (init_unl hl) (List.prefix_append _ _)
  generalize bip144 t ++ rest = d at *
  have hW : (Tx.read w (RS.init d)).2.good = false := by
    cases w with
    | true => exact hT
    | false =>
      rw [Bool.eq_false_iff]
      intro hg
      have := (C11_skip_implies_keep _ hl hg).1
      rw [this, hg] at hT
      cases hT
  exact ⟨hW, by rw [tx_valid_eq_good w _]; exact hW⟩

/-- In the other direction the two modes agree except on transactions all of whose witness elements are empty. -/
theorem C48_keep_implies_skip_partial (d : Bytes) (hd : d.length < 2 ^ 63)
    (hg : (Tx.read true (RS.init d)).2.good = true)
    (he : (Tx.read true (RS.init d)).1.segregated = true → ∃ i ∈ (Tx.read true (RS.init d)).1.inputs,
      ∃ e ∈ i.witness.stack, e ≠ []) :
    (Tx.read false (RS.init d)).2 = (Tx.read true (RS.init d)).2 ∧
    (Tx.read true (RS.init d)).1.stripped = (Tx.read false (RS.init d)).1 := by
  rcases Tx.read_cases (RS.init d) (init_ok hd) with ⟨t, _, ht, s', h1, h2⟩ | ⟨v, i, o, s', hs', hi, h⟩
  · rw [h1, h2]; exact ⟨rfl, ht⟩
  · have hse : someElement (Tx.read true (RS.init d)).1.inputs = true := by
      have hsg : (Tx.read true (RS.init d)).1.segregated = true := by rw [h]; rfl
      obtain ⟨i, hi, e, hm, hne⟩ := he hsg
      unfold someElement
      rw [List.any_eq_true]
      refine ⟨i, hi, ?_⟩
      rw [List.any_eq_true]
      refine ⟨e, hm, ?_⟩
      cases e with
      | nil => exact absurd rfl hne
      | cons => rfl
    rw [h] at hg hse
    have hf := txTail_true v i o s' hs' hg hse
    obtain ⟨a, b, _⟩ := txTail_false v i o s' hs' hi hf
    rw [h, h]
    exact ⟨a.symm, b⟩

/-- The full claim "validity does not depend on the mode" is false of the code: a transaction whose only witness
element is the empty byte string is valid when witnesses are kept and invalid when they are skipped. -/
def emptyElementTx : Tx :=
  Tx.make 1 [{ point := { hash := nullHash, index := 0 }, script := Script.ofOps [], witness := Witness.ofStack [[]],
               sequence := 0 }] [{ value := 1, script := Script.ofOps [] }] 0

theorem C48_mode_counterexample :
    (Tx.read true (RS.init (emptyElementTx.toData true))).1.valid = true ∧
    (Tx.read false (RS.init (emptyElementTx.toData true))).1.valid = false := by
  constructor <;> rfl

/-- Non-vacuity of the positive theorem. -/
example : (Tx.read true (RS.init (exampleTx.toData true))).2.good = true ∧
    (Tx.read false (RS.init (exampleTx.toData true))).2.good = true := by
  constructor <;> rfl

end Verif
