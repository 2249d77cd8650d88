import Verif.Model.Json
import Verif.Props.ScriptText
import Verif.Props.Radix
import Verif.Props.Config
/-!
# C89: JSON of chain objects
-/
namespace Verif.Json
open Verif
open Verif.Radix (encode16 decode16 encodeHash decodeHash)
open Verif.ScriptText

theorem hashOf_encode (h : Hash) : hashOf (encodeHash h.bytes) = h := by
  have e : decodeHash 32 (encodeHash h.bytes) = some h.bytes := Config.decode_hash h.len
  unfold hashOf
  split
  · rename_i b hb
    rw [e] at hb
    cases hb
    rw [dif_pos h.len]
  · rename_i hb
    rw [e] at hb
    cases hb

theorem reparse_string (s : Bytes) : (Json.string s).reparse = .string s := by rw [Json.reparse]

theorem toNumber_uint (limit n : Nat) (h : n < limit) : (Json.uint64 n).toNumber limit = some n := by simp [Json.toNumber, h]

theorem toNumber_reparse (limit n : Nat) (h : n < limit) : ((Json.uint64 n).reparse).toNumber limit = some n := by
  rw [Json.reparse]
  split
  · simp only [Json.toNumber]
    rw [if_pos ⟨by omega, by omega⟩]
    simp
  · exact toNumber_uint _ _ h

theorem u32_lt (x : UInt32) : x.toNat < 2 ^ 32 := x.toBitVec.isLt
theorem u64_lt (x : UInt64) : x.toNat < 2 ^ 64 := x.toBitVec.isLt

/-- The two documents of an object: in memory, and parsed from its text. -/
def Doc (j d : Json) : Prop := d = j ∨ d = j.reparse

theorem Doc.string {s : Bytes} {d : Json} (h : Doc (.string s) d) : d = .string s := by
  rcases h with rfl | rfl
  · rfl
  · exact reparse_string s

theorem Doc.number {n limit : Nat} {d : Json} (h : Doc (.uint64 n) d) (hn : n < limit) : d.toNumber limit = some n := by
  rcases h with rfl | rfl
  · exact toNumber_uint _ _ hn
  · exact toNumber_reparse _ _ hn

theorem reparseFields_eq (l : List (String × Json)) : reparseFields l = l.map fun f => (f.1, f.2.reparse) := by
  induction l with
  | nil => rfl
  | cons f l ih => obtain ⟨n, v⟩ := f; rw [reparseFields, ih]; rfl

theorem reparseList_eq (l : List Json) : reparseList l = l.map Json.reparse := by
  induction l with
  | nil => rfl
  | cons f l ih => rw [reparseList, ih]; rfl

/-- A member of either document is a document of the member. -/
theorem Doc.member {l : List (String × Json)} {d v : Json} {name : String} (h : Doc (.object l) d) (hv : l.lookup name = some v) :
    ∃ d', d.at name = some d' ∧ Doc v d' := by
  rcases h with rfl | rfl
  · exact ⟨v, hv, Or.inl rfl⟩
  · refine ⟨v.reparse, ?_, Or.inr rfl⟩
    rw [Json.reparse, reparseFields_eq]
    unfold Json.at
    dsimp only
    induction l with
    | nil => cases hv
    | cons f l ih =>
      obtain ⟨n, x⟩ := f
      rw [List.map_cons, List.lookup_cons]
      rw [List.lookup_cons] at hv
      cases hn : name == n
      · rw [hn] at hv; exact ih hv
      · rw [hn] at hv; cases hv; rfl

theorem Doc.missing {l : List (String × Json)} {d : Json} {name : String} (h : Doc (.object l) d) (hv : l.lookup name = none) : d.at name = none := by
  rcases h with rfl | rfl
  · exact hv
  · rw [Json.reparse, reparseFields_eq]
    unfold Json.at
    dsimp only
    induction l with
    | nil => rfl
    | cons f l ih =>
      obtain ⟨n, x⟩ := f
      rw [List.map_cons, List.lookup_cons]
      rw [List.lookup_cons] at hv
      cases hn : name == n
      · rw [hn] at hv; exact ih hv
      · rw [hn] at hv; cases hv

theorem reparse_object (l : List (String × Json)) : (Json.object l).reparse = .object (l.map fun f => (f.1, f.2.reparse)) := by
  rw [Json.reparse, reparseFields_eq]

theorem reparse_array (l : List Json) : (Json.array l).reparse = .array (l.map Json.reparse) := by rw [Json.reparse, reparseList_eq]

/-- C89. Points, checkpoints and outpoints are read back from their JSON, in memory or as text. -/
theorem C89_point (p : Point) (hp : p.valid = true) (d : Json) (h : Doc (ofPoint p) d) : toPoint d = some p := by
  obtain ⟨d1, e1, h1⟩ := h.member (name := "hash") rfl
  obtain ⟨d2, e2, h2⟩ := h.member (name := "index") rfl
  unfold toPoint
  rw [e1, h1.string, e2]
  simp only [Option.bind_some, Json.asString]
  rw [h2.number (u32_lt _), hashOf_encode]
  cases p; cases hp; simp

theorem C89_checkpoint (c : Checkpoint) (hc : c.height < 2 ^ 64) (d : Json) (h : Doc (ofCheckpoint c) d) : toCheckpoint d = some c := by
  obtain ⟨d1, e1, h1⟩ := h.member (name := "hash") rfl
  obtain ⟨d2, e2, h2⟩ := h.member (name := "height") rfl
  unfold toCheckpoint
  rw [e1, h1.string, e2]
  simp only [Option.bind_some, Json.asString]
  rw [h2.number hc, hashOf_encode]
  rfl

theorem C89_outpoint (o : Outpoint) (hp : o.point.valid = true) (d : Json) (h : Doc (ofOutpoint o) d) : toOutpoint d = some o := by
  obtain ⟨d1, e1, h1⟩ := h.member (name := "point") rfl
  obtain ⟨d2, e2, h2⟩ := h.member (name := "value") rfl
  unfold toOutpoint
  rw [e1, e2]
  simp only [Option.bind_some]
  rw [C89_point _ hp _ h1, h2.number (u64_lt _)]
  simp

/-- C89. Headers are read back from their JSON; the hash written is not read. -/
theorem C89_header (digest : Bytes → Bytes) (x : Header) (hx : x.valid = true) (d : Json) (h : Doc (ofHeader digest x) d) : toHeader d = some x := by
  obtain ⟨d1, e1, h1⟩ := h.member (name := "version") rfl
  obtain ⟨d2, e2, h2⟩ := h.member (name := "previous") rfl
  obtain ⟨d3, e3, h3⟩ := h.member (name := "merkle_root") rfl
  obtain ⟨d4, e4, h4⟩ := h.member (name := "timestamp") rfl
  obtain ⟨d5, e5, h5⟩ := h.member (name := "bits") rfl
  obtain ⟨d6, e6, h6⟩ := h.member (name := "nonce") rfl
  unfold toHeader
  rw [e1, e2, e3, e4, e5, e6, h2.string, h3.string]
  simp only [Option.bind_some, Json.asString]
  rw [h1.number (u32_lt _), h4.number (u32_lt _), h5.number (u32_lt _), h6.number (u32_lt _)]
  simp only [Option.bind_some, Option.map_some, hashOf_encode]
  cases x; cases hx; simp

/-- A script whose JSON (text) is faithful: made of operations that are pushes of their own size or have no data; no push past the end. -/
def ScriptOK (s : Script) : Prop := s = Script.ofOps s.ops ∧ ∀ o ∈ s.ops, o.Consistent ∨ (o.underflow = false ∧ o.data = [])

/-- C89. Operations, scripts and witnesses are their text (C42). -/
theorem C89_text (o : Op) (ho : o.Consistent ∨ (o.underflow = false ∧ o.data = [])) (s : Script) (hs : ScriptOK s) (stack : List Bytes)
    (do_ ds dw : Json) (h1 : Doc (ofOperation o) do_) (h2 : Doc (ofScript s) ds) (h3 : Doc (ofWitness (Witness.ofStack stack)) dw) :
    toOperation do_ = some o ∧ toScript ds = some s ∧ toWitness dw = some (Witness.ofStack stack) := by
  rw [Doc.string h1, Doc.string h2, Doc.string h3]
  refine ⟨congrArg some (C42_operation _ o ho), congrArg some ?_, congrArg some (C42_witness stack)⟩
  rw [C42_script _ s hs.2]
  exact hs.1.symm

theorem script_back {s : Script} (hs : ScriptOK s) {d : Json} (h : Doc (ofScript s) d) : toScript d = some s :=
  (C89_text { code := 0 } (Or.inr ⟨rfl, rfl⟩) s hs [] _ d _ (Or.inl rfl) h (Or.inl rfl)).2.1

theorem witness_back {w : Witness} (hw : w = Witness.ofStack w.stack) {d : Json} (h : Doc (ofWitness w) d) : toWitness d = some w := by
  rw [hw] at h
  have := (C89_text { code := 0 } (Or.inr ⟨rfl, rfl⟩) (Script.ofOps []) ⟨rfl, by simp [Script.ofOps]⟩ w.stack _ _ d (Or.inl rfl) (Or.inl rfl) h).2.2
  rw [this, ← hw]

/-- An input with a faithful script, and a witness that was read or constructed, or none. -/
def InputOK (i : Input) : Prop :=
  i.valid = true ∧ i.point.valid = true ∧ ScriptOK i.script ∧ (i.witness.valid = true → i.witness = Witness.ofStack i.witness.stack)

/-- C89. An input is read back from its JSON, in memory or as text, exactly if it has a witness object (which may be empty): otherwise the member
is not written, and reading it throws. -/
theorem C89_input (i : Input) (hi : InputOK i) (d : Json) (h : Doc (ofInput i) d) :
    toInput d = if i.witness.valid then some i else none := by
  obtain ⟨hv, hp, hs, hw⟩ := hi
  unfold ofInput at h
  cases hwv : i.witness.valid
  · rw [hwv, if_neg (by decide)] at h
    rw [if_neg (by decide)]
    have e := h.missing (name := "witness") rfl
    unfold toInput
    rw [e]
    cases (d.at "point").bind toPoint with
    | none => rfl
    | some p => cases (d.at "script").bind toScript <;> rfl
  · rw [hwv, if_pos rfl] at h
    rw [if_pos rfl]
    obtain ⟨d1, e1, h1⟩ := h.member (name := "point") rfl
    obtain ⟨d2, e2, h2⟩ := h.member (name := "script") rfl
    obtain ⟨d3, e3, h3⟩ := h.member (name := "witness") rfl
    obtain ⟨d4, e4, h4⟩ := h.member (name := "sequence") rfl
    unfold toInput
    rw [e1, e2, e3, e4]
    simp only [Option.bind_some]
    rw [C89_point _ hp _ h1, script_back hs h2, witness_back (hw hwv) h3, h4.number (u32_lt _)]
    cases i; cases hv; simp

def OutputOK (o : Output) : Prop := o.valid = true ∧ ScriptOK o.script

/-- C89. An output is read back from its JSON in memory. -/
theorem C89_output (o : Output) (ho : OutputOK o) : toOutput (ofOutput o) = some o := by
  obtain ⟨hv, hs⟩ := ho
  have h : Doc (ofOutput o) (ofOutput o) := Or.inl rfl
  unfold toOutput ofOutput
  have e1 : (Json.object [("value", Json.uint64 o.value.toNat), ("script", ofScript o.script)]).at "value" = some (.uint64 o.value.toNat) := rfl
  have e2 : (Json.object [("value", Json.uint64 o.value.toNat), ("script", ofScript o.script)]).at "script" = some (ofScript o.script) := rfl
  rw [e1, e2]
  simp only [Option.bind_some, Json.asUint64]
  rw [script_back hs (Or.inl rfl)]
  cases o; cases hv; simp

/-- C89. Parsed from its text an output is read back exactly if its value is not less than 2^63, which no amount of money is: otherwise the
parser gives the number the other kind of integer, and reading it throws. -/
theorem C89_output_text (o : Output) (ho : OutputOK o) : toOutput (ofOutput o).reparse = if o.value.toNat < 2 ^ 63 then none else some o := by
  obtain ⟨hv, hs⟩ := ho
  have e1 : ((ofOutput o).reparse).at "value" = some (Json.uint64 o.value.toNat).reparse := by
    unfold ofOutput; rw [reparse_object]; rfl
  have e2 : ((ofOutput o).reparse).at "script" = some (ofScript o.script).reparse := by
    unfold ofOutput; rw [reparse_object]; rfl
  unfold toOutput
  rw [e1, e2, Json.reparse]
  simp only [Option.bind_some]
  rw [script_back hs (Or.inr rfl)]
  split
  · rfl
  · simp only [Json.asUint64, Option.bind_some, Option.map_some]
    cases o; cases hv; simp

theorem mapM_some {α β : Type} {f : α → Option β} {l : List α} {m : List β} (hl : l.length = m.length)
    (h : ∀ i (h1 : i < l.length) (h2 : i < m.length), f l[i] = some m[i]) : l.mapM f = some m := by
  induction l generalizing m with
  | nil => cases m with
    | nil => rfl
    | cons b m => cases hl
  | cons a l ih => cases m with
    | nil => cases hl
    | cons b m =>
      have h0 := h 0 (by simp) (by simp)
      simp only [List.getElem_cons_zero] at h0
      have ht := ih (m := m) (by simpa using hl) fun i h1 h2 => by
        have := h (i + 1) (by simpa using h1) (by simpa using h2)
        simpa only [List.getElem_cons_succ] using this
      rw [List.mapM_cons, h0, ht]
      rfl

theorem mapM_none {α β : Type} {f : α → Option β} {l : List α} {a : α} (ha : a ∈ l) (h : f a = none) : l.mapM f = none := by
  induction l with
  | nil => cases ha
  | cons b l ih =>
    rw [List.mapM_cons]
    rcases List.mem_cons.1 ha with rfl | ha
    · rw [h]; rfl
    · rw [ih ha]; cases f b <;> rfl

/-- A transaction as constructed or read, with faithful scripts. -/
def TxOK (t : Tx) : Prop :=
  t.valid = true ∧ t.segregated = segregatedInputs t.inputs ∧ (∀ i ∈ t.inputs, InputOK i) ∧ ∀ o ∈ t.outputs, OutputOK o

/-- C89. A transaction is read back from its JSON in memory exactly if every input has a witness object; so no transaction without witnesses
(as read from its serialization) is. -/
theorem C89_transaction (digest : Bytes → Bytes) (t : Tx) (ht : TxOK t) :
    toTx (ofTx digest t) = if ∀ i ∈ t.inputs, i.witness.valid = true then some t else none := by
  obtain ⟨hv, hg, hi, ho⟩ := ht
  have e1 : (ofTx digest t).at "version" = some (.uint64 t.version.toNat) := rfl
  have e2 : (ofTx digest t).at "inputs" = some (.array (t.inputs.map ofInput)) := rfl
  have e3 : (ofTx digest t).at "outputs" = some (.array (t.outputs.map ofOutput)) := rfl
  have e4 : (ofTx digest t).at "locktime" = some (.uint64 t.locktime.toNat) := rfl
  unfold toTx
  rw [e1, e2, e3, e4]
  simp only [Option.bind_some, Json.toList]
  rw [toNumber_uint _ _ (u32_lt _), toNumber_uint _ _ (u32_lt _)]
  have O : (t.outputs.map ofOutput).mapM toOutput = some t.outputs := mapM_some (by simp) fun i h1 h2 => by
    rw [List.getElem_map]; exact C89_output _ (ho _ (List.getElem_mem h2))
  split
  · rename_i h
    have I : (t.inputs.map ofInput).mapM toInput = some t.inputs := mapM_some (by simp) fun i h1 h2 => by
      rw [List.getElem_map, C89_input _ (hi _ (List.getElem_mem h2)) _ (Or.inl rfl), if_pos (h _ (List.getElem_mem h2))]
    rw [I, O]
    simp only [Option.bind_some, Option.map_some]
    rw [← hg]
    cases t; cases hv; simp
  · rename_i h
    have : ∃ i ∈ t.inputs, ¬ i.witness.valid = true := by
      apply Classical.byContradiction
      intro hn
      exact h fun i hi => Classical.byContradiction fun hx => hn ⟨i, hi, hx⟩
    obtain ⟨i, him, hiv⟩ := this
    have I : (t.inputs.map ofInput).mapM toInput = none :=
      mapM_none (List.mem_map.2 ⟨i, him, rfl⟩) (by rw [C89_input _ (hi i him) _ (Or.inl rfl), if_neg hiv])
    rw [I]; rfl

/-- C89. Parsed from its text no transaction with an output is read back (unless all of its values are above any amount of money). -/
theorem C89_transaction_text_counterexample (digest : Bytes → Bytes) (t : Tx) (ht : TxOK t) (o : Output) (hm : o ∈ t.outputs) (hlt : o.value.toNat < 2 ^ 63) :
    toTx (ofTx digest t).reparse = none := by
  obtain ⟨hv, hg, hi, ho⟩ := ht
  have e3 : ((ofTx digest t).reparse).at "outputs" = some (.array ((t.outputs.map ofOutput).map Json.reparse)) := by
    unfold ofTx; rw [reparse_object]
    show some (Json.array (t.outputs.map ofOutput)).reparse = _
    rw [reparse_array]
  have O : ((t.outputs.map ofOutput).map Json.reparse).mapM toOutput = none :=
    mapM_none (a := (ofOutput o).reparse) (List.mem_map.2 ⟨_, List.mem_map.2 ⟨o, hm, rfl⟩, rfl⟩) (by rw [C89_output_text o (ho o hm), if_pos hlt])
  unfold toTx
  rw [e3]
  simp only [Option.bind_some, Json.toList, O]
  cases ((ofTx digest t).reparse.at "version").bind (Json.toNumber (2 ^ 32)) with
  | none => rfl
  | some v => cases ((ofTx digest t).reparse.at "inputs").bind (Json.toList toInput) <;> rfl

/-- C89. Blocks: the header and the transactions, under the same condition. -/
theorem C89_block (digest : Bytes → Bytes) (b : Block) (hv : b.valid = true) (hh : b.header.valid = true) (ht : ∀ t ∈ b.txs, TxOK t) :
    toBlock (ofBlock digest b) = if ∀ t ∈ b.txs, ∀ i ∈ t.inputs, i.witness.valid = true then some b else none := by
  have e1 : (ofBlock digest b).at "header" = some (ofHeader digest b.header) := rfl
  have e2 : (ofBlock digest b).at "transactions" = some (.array (b.txs.map (ofTx digest))) := rfl
  unfold toBlock
  rw [e1, e2]
  simp only [Option.bind_some, Json.toList]
  rw [C89_header digest _ hh _ (Or.inl rfl)]
  split
  · rename_i h
    have T : (b.txs.map (ofTx digest)).mapM toTx = some b.txs := mapM_some (by simp) fun i h1 h2 => by
      rw [List.getElem_map, C89_transaction _ _ (ht _ (List.getElem_mem h2)), if_pos (h _ (List.getElem_mem h2))]
    rw [T]
    cases b; cases hv; rfl
  · rename_i h
    have : ∃ t ∈ b.txs, ¬ ∀ i ∈ t.inputs, i.witness.valid = true := by
      apply Classical.byContradiction
      intro hn
      exact h fun i hi => Classical.byContradiction fun hx => hn ⟨i, hi, hx⟩
    obtain ⟨t, htm, htv⟩ := this
    have T : (b.txs.map (ofTx digest)).mapM toTx = none :=
      mapM_none (List.mem_map.2 ⟨t, htm, rfl⟩) (by rw [C89_transaction _ _ (ht t htm), if_neg htv])
    rw [T]; rfl

/-- C89. bitcoind: the `hex` of a transaction is the base16 of its serialization with witnesses, of exactly the `size` written beside it; it
decodes to that serialization, and reading that gives the transaction. -/
theorem C89_bitcoind_transaction (digest : Bytes → Bytes) (t : Tx) (hw : t.Writable) (hs : t.Sized) (hl : (t.toData true).length < 2 ^ 63) :
    (bitcoindTx digest t).at "hex" = some (.string (encode16 (t.toData true))) ∧
    (bitcoindTx digest t).at "size" = some (.uint64 (t.toData true).length) ∧
    ∃ d, decode16 (bitcoindHex t) = some d ∧ d.length = t.serializedSize true ∧ (Tx.read true (RS.init d)).1.eqv t = true ∧
      (Tx.read true (RS.init d)).2.good = true := by
  have hz := Tx.size_ok hs true (by omega)
  have hx : bitcoindHex t = encode16 (t.toData true) := by
    unfold bitcoindHex
    dsimp only
    show (encode16 (t.toData true)).take _ ++ List.replicate (_ - (encode16 (t.toData true)).length) 0 = _
    rw [hz, Radix.encode16_length]
    rw [List.take_of_length_le (by rw [Radix.encode16_length]; omega)]
    rw [Nat.sub_self]
    simp
  refine ⟨?_, ?_, ?_⟩
  · show some (Json.string (bitcoindHex t)) = _; rw [hx]
  · show some (Json.uint64 (t.serializedSize true)) = _; rw [hz]
  · have hb := Config.tx_back t hw _ rfl hl
    exact ⟨_, by rw [hx]; exact Radix.C31_decode_encode _, hz.symm, hb.1, hb.2.2⟩

/-- C89. bitcoind: an input that is not a coinbase names the transaction and the position it spends, its script as base16, and its witness,
if it has an element, element by element. -/
theorem C89_bitcoind_input (i : Input) (hc : ¬ (i.point.index = 0xffffffff ∧ i.point.hash.bytes = List.replicate 32 0)) :
    (∃ s, (bitcoindInput i).at "txid" = some (.string s) ∧ hashOf s = i.point.hash) ∧
    (bitcoindInput i).at "vout" = some (.uint64 i.point.index.toNat) ∧
    (bitcoindInput i).at "sequence" = some (.uint64 i.sequence.toNat) ∧
    (∃ o s, (bitcoindInput i).at "scriptSig" = some o ∧ o.at "hex" = some (.string s) ∧ decode16 s = some (i.script.toData false)) ∧
    (bitcoindInput i).at "coinbase" = none ∧
    (((bitcoindInput i).at "txinwitness").bind fun v => v.toList fun e => e.asString.bind decode16) =
      if i.witness.stack = [] then none else some i.witness.stack := by
  have hn : isCoinbase i.point = false := by
    unfold isCoinbase
    rw [Bool.eq_false_iff]
    intro h
    simp only [Bool.and_eq_true, beq_iff_eq] at h
    exact hc h
  have hm : (i.witness.stack.map fun e => Json.string (encode16 e)).mapM (fun e : Json => e.asString.bind decode16) = some i.witness.stack :=
    mapM_some (by simp) fun k h1 h2 => by
      rw [List.getElem_map]
      exact Radix.C31_decode_encode _
  unfold bitcoindInput
  rw [hn, if_neg (by decide)]
  cases hw : i.witness.stack with
  | nil =>
    exact ⟨⟨_, rfl, hashOf_encode _⟩, rfl, rfl, ⟨_, _, rfl, rfl, Radix.C31_decode_encode _⟩, rfl, rfl⟩
  | cons a l =>
    refine ⟨⟨_, rfl, hashOf_encode _⟩, rfl, rfl, ⟨_, _, rfl, rfl, Radix.C31_decode_encode _⟩, rfl, ?_⟩
    rw [if_neg (c := a :: l = []) (by simp)]
    exact hm.trans (congrArg some hw)

/-- C89. bitcoind: a coinbase has its script, not decoded, and no previous output. -/
theorem C89_bitcoind_coinbase (i : Input) (hc : i.point.index = 0xffffffff ∧ i.point.hash.bytes = List.replicate 32 0) :
    (∃ s, (bitcoindInput i).at "coinbase" = some (.string s) ∧ decode16 s = some (i.script.toData false)) ∧
    (bitcoindInput i).at "txid" = none ∧ (bitcoindInput i).at "txinwitness" = none ∧
    (bitcoindInput i).at "sequence" = some (.uint64 i.sequence.toNat) := by
  have hn : isCoinbase i.point = true := by unfold isCoinbase; rw [hc.1, hc.2]; decide
  unfold bitcoindInput
  rw [hn, if_pos rfl]
  exact ⟨⟨_, rfl, Radix.C31_decode_encode _⟩, rfl, rfl, rfl⟩

/-- C89. bitcoind: the inputs and outputs are listed in order, the output at position `n` with that `n` and its script. -/
theorem C89_bitcoind_lists (digest : Bytes → Bytes) (t : Tx) :
    (bitcoindTx digest t).at "vin" = some (.array (t.inputs.map bitcoindInput)) ∧
    ∃ l, (bitcoindTx digest t).at "vout" = some (.array l) ∧ l.length = t.outputs.length ∧
      ∀ n (h : n < t.outputs.length), ∃ v s k, l[n]? = some v ∧ v.at "n" = some (.uint64 n) ∧ v.at "scriptPubKey" = some s ∧
        s.at "hex" = some (.string k) ∧ decode16 k = some (t.outputs[n].script.toData false) := by
  refine ⟨rfl, _, rfl, by simp, fun n h => ⟨.object [("scriptPubKey", .object [("hex", .string (bitcoindScriptHex t.outputs[n].script))]), ("n", .uint64 n)],
    _, _, ?_, rfl, rfl, rfl, Radix.C31_decode_encode _⟩⟩
  rw [List.getElem?_map, List.getElem?_zipIdx, List.getElem?_eq_getElem h]
  simp

/-! ## Cases -/

theorem exampleTx_ok : TxOK exampleTx := by
  refine ⟨rfl, by decide, ?_, ?_⟩
  · intro i hi
    simp only [exampleTx, Tx.make, List.mem_cons, List.not_mem_nil, or_false] at hi
    subst hi
    refine ⟨rfl, rfl, ⟨rfl, fun o ho => ?_⟩, fun _ => rfl⟩
    simp only [Script.ofOps, List.mem_cons, List.not_mem_nil, or_false] at ho
    subst ho
    exact Or.inl ⟨rfl, by simp [SizeFits], by decide⟩
  · intro o ho
    simp only [exampleTx, Tx.make, List.mem_cons, List.not_mem_nil, or_false] at ho
    subst ho
    refine ⟨rfl, ⟨rfl, fun o ho => ?_⟩⟩
    simp only [Script.ofOps, List.mem_cons, List.not_mem_nil, or_false] at ho
    subst ho
    exact Or.inr ⟨rfl, rfl⟩

/-- The transaction with a witness of C08 is read back in memory, and not from text. -/
example (digest : Bytes → Bytes) : toTx (ofTx digest exampleTx) = some exampleTx ∧ toTx (ofTx digest exampleTx).reparse = none := by
  refine ⟨?_, C89_transaction_text_counterexample digest _ exampleTx_ok _ (List.mem_cons_self ..) (by decide)⟩
  rw [C89_transaction digest _ exampleTx_ok, if_pos]
  intro i hi
  simp only [exampleTx, Tx.make, List.mem_cons, List.not_mem_nil, or_false] at hi
  subst hi
  rfl

/-- C89. The same transaction without its witness, as read from its serialization without witnesses, is not read back from its own JSON. -/
def legacyTx : Tx := (Tx.read true (RS.init (exampleTx.toData false))).1

theorem C89_legacy_counterexample (digest : Bytes → Bytes) : legacyTx.valid = true ∧ legacyTx.inputs.length = 1 ∧ toTx (ofTx digest legacyTx) = none := by
  refine ⟨by decide +kernel, by decide +kernel, ?_⟩
  have hm : ∃ i ∈ legacyTx.inputs, i.witness.valid = false := ⟨legacyTx.inputs[0]'(by decide +kernel), List.getElem_mem _, by decide +kernel⟩
  obtain ⟨i, hi, hv⟩ := hm
  have h : (ofInput i).at "witness" = none := by unfold ofInput; rw [hv, if_neg (by decide)]; rfl
  have hin : toInput (ofInput i) = none := by
    unfold toInput
    rw [h]
    cases ((ofInput i).at "point").bind toPoint with
    | none => rfl
    | some p => cases ((ofInput i).at "script").bind toScript <;> rfl
  have e2 : (ofTx digest legacyTx).at "inputs" = some (.array (legacyTx.inputs.map ofInput)) := rfl
  unfold toTx
  rw [e2]
  simp only [Option.bind_some, Json.toList, mapM_none (List.mem_map.2 ⟨i, hi, rfl⟩) hin]
  cases ((ofTx digest legacyTx).at "version").bind (Json.toNumber (2 ^ 32)) <;> rfl

/-- The numbers and hashes of a transaction in the bitcoind form: the identifier is of the serialization without witnesses, the hash with. -/
theorem C89_bitcoind_fields (digest : Bytes → Bytes) (t : Tx) :
    (bitcoindTx digest t).at "txid" = some (.string (encodeHash (digest (t.toData false)))) ∧
    (bitcoindTx digest t).at "hash" = some (.string (encodeHash (digest (t.toData true)))) ∧
    (bitcoindTx digest t).at "vsize" = some (.uint64 t.virtualSize) ∧ (bitcoindTx digest t).at "weight" = some (.uint64 t.weight) ∧
    (bitcoindTx digest t).at "version" = some (.uint64 t.version.toNat) ∧ (bitcoindTx digest t).at "locktime" = some (.uint64 t.locktime.toNat) :=
  ⟨rfl, rfl, rfl, rfl, rfl, rfl⟩

/-- Operations have the names they have with all rules active. -/
theorem C89_operation_names : ofOperation { code := 177, data := [], underflow := false } = .string (Radix.ascii "checklocktimeverify") ∧
    ofOperation { code := 178, data := [], underflow := false } = .string (Radix.ascii "checksequenceverify") ∧
    ofOperation { code := 186, data := [], underflow := false } = .string (Radix.ascii "checksigadd") :=
  ⟨congrArg Json.string (by decide +kernel), congrArg Json.string (by decide +kernel), congrArg Json.string (by decide +kernel)⟩

end Verif.Json
