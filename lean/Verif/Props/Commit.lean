import Verif.Spec.Commit
import Verif.Props.Validate
import Verif.Props.Number
/-!
# C53, C54: coinbase height, witness commitment and the contextual block rules
-/
namespace Verif.Validate
open Verif Verif.Spec Verif.Validate.Spec

theorem opsData_cons (o : Op) (os : List Op) : opsData (o :: os) = o.toData ++ opsData os := by simp [opsData]

theorem direct_toData (d : Bytes) (h : d.length ≤ 75) : ({ code := UInt8.ofNat d.length, data := d } : Op).toData = UInt8.ofNat d.length :: d := by
  have c := direct_consistent d h
  have e : (UInt8.ofNat d.length).toNat = d.length := by simp; omega
  exact (consistent_small c (by rw [UInt8.le_iff_toNat_le, e]; exact h)).2

/-- With BIP34 the coinbase script is accepted exactly if it starts with the size-prefixed minimal encoding of the height. -/
theorem C53_height (ops : List Op) (height : Nat) (h : OpsOK ops) (hl : (opsData ops).length < 2 ^ 63) (hh : height < 2 ^ 63) :
    coinbasePattern ops height = true ↔ StartsWithHeight (opsData ops) height := by
  have hlen : (Num.chunkFromInteger height).length ≤ 9 := by
    have := (Num.encode_length_le_iff 9 (by omega) height).2 (by
      constructor <;> push_cast <;> omega)
    exact this
  constructor
  · intro hp
    unfold coinbasePattern at hp
    split at hp
    · rename_i o os
      simp only [Bool.and_eq_true, beq_iff_eq, Op.isNominalPush] at hp
      obtain ⟨h1, h2⟩ := hp
      have hd : o.data.length ≤ 9 := by rw [h2]; exact hlen
      rw [opcodeFromSize_small (by omega)] at h1
      have e : (UInt8.ofNat o.data.length).toNat = o.data.length := by simp; omega
      have hc := h.consistent_of_code o (by simp) (by rw [h1]; intro hx; rw [hx] at e; simp at e; omega)
      have ht := (consistent_small hc (by rw [h1, UInt8.le_iff_toNat_le, e]; show _ ≤ 75; omega)).2
      refine ⟨o.data, opsData os, ?_, hd, by rw [h2]; exact Num.C14_encode_minimal _, by rw [h2]; exact Num.C14_encode_denotes _⟩
      rw [opsData_cons, ht, h1]
    · cases hp
  · rintro ⟨n, rest, he, hn, hm, hv⟩
    have hr : rest.length < 2 ^ 63 := by rw [he] at hl; simp at hl; omega
    have hi : ops = { code := UInt8.ofNat n.length, data := n } :: parseOps rest := by
      apply opsOK_injective h (.cons _ _ (direct_consistent n (by omega)) (parseOps_ok hr)) hl
      rw [he, opsData_cons, parseOps_data hr, direct_toData _ (by omega)]
    rw [hi]
    simp only [coinbasePattern, Op.isNominalPush, Bool.and_eq_true, beq_iff_eq]
    exact ⟨(opcodeFromSize_small (by omega)).symm, by rw [← hv]; exact (Num.C14_encode_unique n hm).symm⟩

/-- Hence two heights are never encoded alike: a coinbase accepted at one height is refused at any other. -/
theorem C53_unique (ops : List Op) (a b : Nat) (h1 : coinbasePattern ops a = true) (h2 : coinbasePattern ops b = true) : a = b := by
  unfold coinbasePattern at h1 h2
  split at h1
  · simp only [Bool.and_eq_true, beq_iff_eq] at h1 h2
    have := congrArg scriptNum (h1.2.symm.trans h2.2)
    rw [Num.C14_encode_denotes, Num.C14_encode_denotes] at this
    exact_mod_cast this
  · cases h1

/-- The single byte opcodes that other implementations write for heights 1 to 16 are refused. -/
theorem C53_small_heights (ops : List Op) (n : Nat) (h1 : 1 ≤ n) (h16 : n ≤ 16) :
    coinbasePattern ({ code := UInt8.ofNat (80 + n) } :: ops) n = false := by
  have : Num.chunkFromInteger n ≠ [] := by
    intro hx
    have := Num.C14_encode_denotes (n : Int)
    rw [hx] at this
    simp [scriptNum] at this
    omega
  simp only [coinbasePattern, Bool.and_eq_false_iff, beq_eq_false_iff_ne]
  exact .inr (Ne.symm this)

example : StartsWithHeight [3, 0x40, 0x0d, 0x03, 0xff, 0xff] 200000 := ⟨[0x40, 0x0d, 0x03], [0xff, 0xff], rfl, by decide, .inr ⟨[0x40, 0x0d], 0x03, rfl, .inl (by decide)⟩, by decide⟩
example : coinbasePattern [{ code := 3, data := [0x40, 0x0d, 0x03] }] 200000 = true ∧
    coinbasePattern [{ code := 3, data := [0x40, 0x0d, 0x03] }] 200001 = false := by decide

/-! ## C54 -/

theorem committed_iff (o : Output) (h : Hash) (hok : OpsOK o.script.ops) (hl : (opsData o.script.ops).length < 2 ^ 63) :
    committedHash o = some h ↔ Commits (opsData o.script.ops) h.bytes := by
  generalize hs : o.script.ops = ops at hok hl
  constructor
  · intro hp
    unfold committedHash at hp
    rw [hs] at hp
    split at hp
    · rename_i hpat
      unfold commitmentPattern at hpat
      split at hpat
      · rename_i a b rest
        simp only [Bool.and_eq_true, beq_iff_eq, decide_eq_true_eq] at hpat
        obtain ⟨⟨⟨ha, hb⟩, h4⟩, h5⟩ := hpat
        simp only [Option.some.injEq] at hp
        have ca := hok.consistent_of_code a (by simp) (by rw [ha]; decide)
        have cb := hok.consistent_of_code b (by simp) (by rw [hb]; decide)
        have ta := consistent_large ca (by rw [ha]; decide)
        have tb := consistent_small cb (by rw [hb]; decide)
        have hlen : b.data.length = 36 := by rw [tb.1, hb]; rfl
        refine ⟨h.len, opsData rest, ?_⟩
        rw [opsData_cons, opsData_cons, ta.2, tb.2, ha, hb, ← hp]
        have e : (Hash.of (b.data.drop 4)).bytes = b.data.drop 4 := fitBytes_of_length (by simp [hlen])
        rw [e]
        conv_lhs => rw [← List.take_append_drop 4 b.data, h5]
        simp
      · cases hpat
    · cases hp
  · rintro ⟨_, rest, he⟩
    have hr : rest.length < 2 ^ 63 := by rw [he] at hl; simp at hl; omega
    have hi : ops = { code := 106 } :: { code := 36, data := [0xaa, 0x21, 0xa9, 0xed] ++ h.bytes } :: parseOps rest := by
      have hlen : ([0xaa, 0x21, 0xa9, 0xed] ++ h.bytes : Bytes).length = 36 := by simp [h.len]
      have c36 := direct_consistent ([0xaa, 0x21, 0xa9, 0xed] ++ h.bytes) (by omega)
      have t36 := direct_toData ([0xaa, 0x21, 0xa9, 0xed] ++ h.bytes) (by omega)
      rw [hlen] at c36 t36
      apply opsOK_injective hok (.cons _ _ (plain_consistent 106 (by decide)) (.cons _ _ c36 (parseOps_ok hr))) hl
      rw [he, opsData_cons, opsData_cons, parseOps_data hr]
      erw [t36]
      simp [Op.toData]
    unfold committedHash
    rw [hs, hi]
    rw [if_pos (by simp [commitmentPattern])]
    simp only
    have : (([0xaa, 0x21, 0xa9, 0xed] ++ h.bytes : Bytes).drop 4) = h.bytes := rfl
    rw [this]
    congr 1
    exact Hash.ext (fitBytes_of_length h.len)

/-- The last element on which `f` is defined. -/
theorem findLast_iff {α β : Type} (f : α → Option β) (l : List α) (x : β) :
    l.reverse.findSome? f = some x ↔ ∃ a y b, l = a ++ y :: b ∧ f y = some x ∧ ∀ z ∈ b, f z = none := by
  rw [List.findSome?_eq_some_iff]
  constructor
  · rintro ⟨p, y, q, h1, h2, h3⟩
    have := congrArg List.reverse h1
    simp only [List.reverse_reverse, List.reverse_append, List.reverse_cons, List.append_assoc, List.singleton_append] at this
    exact ⟨q.reverse, y, p.reverse, this, h2, by simpa using h3⟩
  · rintro ⟨a, y, b, h1, h2, h3⟩
    exact ⟨b.reverse, y, a.reverse, by simp [h1], h2, by simpa using h3⟩

theorem commitment_none {o : Output} (hok : OpsOK o.script.ops) (hl : (opsData o.script.ops).length < 2 ^ 63) :
    committedHash o = none ↔ ∀ h, ¬ Commits (opsData o.script.ops) h := by
  constructor
  · intro hn h hc
    have := (committed_iff o ⟨h, hc.1⟩ hok hl).2 hc
    rw [hn] at this; cases this
  · intro hn
    cases hc : committedHash o with
    | none => rfl
    | some h => exact absurd ((committed_iff o h hok hl).1 hc) (hn _)

/-- The witness commitment found is that of BIP141, the last of several. -/
theorem C54_commitment (txs : List Tx) (h : Hash)
    (hok : ∀ t ∈ txs, ∀ o ∈ t.outputs, OpsOK o.script.ops ∧ (opsData o.script.ops).length < 2 ^ 63) :
    witnessCommitment txs = some h ↔ LastCommitment txs h.bytes := by
  unfold witnessCommitment LastCommitment coinbaseScripts
  cases txs with
  | nil => simp
  | cons t ts =>
    simp only
    have hok := hok t (by simp)
    rw [findLast_iff]
    constructor
    · rintro ⟨a, y, b, h1, h2, h3⟩
      refine ⟨a.map fun o => opsData o.script.ops, _, b.map fun o => opsData o.script.ops, by rw [h1]; simp; rfl, ?_, ?_⟩
      · have := hok y (by simp [h1])
        exact (committed_iff y h this.1 this.2).1 h2
      · intro s hs
        obtain ⟨z, hz, rfl⟩ := List.mem_map.1 hs
        have := hok z (by rw [h1]; simp [hz])
        exact (commitment_none this.1 this.2).1 (h3 z hz)
    · rintro ⟨a, s, b, h1, h2, h3⟩
      rw [List.map_eq_append_iff] at h1
      obtain ⟨l1, l2, e1, e2, e3⟩ := h1
      rw [List.map_eq_cons_iff] at e3
      obtain ⟨y, l3, e4, e5, e6⟩ := e3
      refine ⟨l1, y, l3, by rw [e1, e4], ?_, ?_⟩
      · have := hok y (by rw [e1, e4]; simp)
        exact (committed_iff y h this.1 this.2).2 (e5 ▸ h2)
      · intro z hz
        have := hok z (by rw [e1, e4]; simp [hz])
        exact (commitment_none this.1 this.2).2 (h3 _ (by rw [← e6]; exact List.mem_map_of_mem hz))

/-- A block passes the witness commitment rule exactly if BIP141's rule holds. -/
theorem C54_rule (v : View) (txs : List Tx) (hne : txs ≠ [])
    (hok : ∀ t ∈ txs, ∀ o ∈ t.outputs, OpsOK o.script.ops ∧ (opsData o.script.ops).length < 2 ^ 63)
    (hseg : ∀ t ∈ txs, t.segregated = segregatedInputs t.inputs) :
    isInvalidWitnessCommitment v txs = false ↔ WitnessCommitted v.wtxid v.pair txs := by
  have hc := fun h => C54_commitment txs h hok
  have hroot := (Merkle.C15_root v.pair nullHash v.build (txs.map v.wtxid)).2.1
  unfold isInvalidWitnessCommitment
  rw [if_neg (by simpa using hne)]
  have hres : ∀ r : Hash, witnessReservation txs = some r ↔ coinbaseStack txs = [r.bytes] := by
    intro r
    unfold witnessReservation coinbaseStack
    cases txs with
    | nil => simp
    | cons t ts =>
      simp only
      cases hin : t.inputs with
      | nil => simp
      | cons i is =>
        simp only
        split
        · rename_i e he
          split
          · rename_i hl
            have : (Hash.of e).bytes = e := fitBytes_of_length hl
            rw [he]
            constructor
            · intro h; rw [← Option.some.inj h, this]
            · intro h; simp only [List.cons.injEq, and_true] at h; congr 1; exact Hash.ext (by rw [this, h])
          · rename_i hl
            rw [he]
            simp only [reduceCtorEq, List.cons.injEq, and_true, false_iff]
            intro h; exact hl (h ▸ r.len)
        · rename_i h
          simp only [reduceCtorEq, false_iff]
          exact h _
  cases hw : witnessCommitment txs with
  | none =>
    have hno : ∀ h, ¬ LastCommitment txs h := by
      intro h hx
      obtain ⟨a, s, b, _, hcm, _⟩ := id hx
      have := (hc ⟨h, hcm.1⟩).2 hx
      rw [hw] at this; cases this
    simp only [List.any_eq_false, Bool.not_eq_true]
    constructor
    · intro h
      refine .inl ⟨hno, ?_⟩
      intro t ht i hi
      have := h t ht
      rw [hseg t ht] at this
      simp only [segregatedInputs, List.any_eq_false, Bool.not_eq_true'] at this
      simpa using this i hi
    · rintro (⟨_, h⟩ | ⟨c, _, _, h, _⟩)
      · intro t ht
        rw [hseg t ht]
        simp only [segregatedInputs, List.any_eq_false]
        intro i hi
        simp [h t ht i hi]
      · exact absurd h (hno _)
  | some commit =>
    have hcm := (hc commit).1 hw
    have huniq : ∀ c : Hash, LastCommitment txs c.bytes → c = commit := by
      intro c h
      have := (hc c).2 h
      rw [hw] at this; exact (Option.some.inj this).symm
    cases hr : witnessReservation txs with
    | none =>
      simp only [Bool.true_eq_false, false_iff]
      rintro (⟨h, _⟩ | ⟨_, _, r, _, h, _⟩)
      · exact h _ hcm
      · have := (hres r).2 h
        rw [hr] at this; cases this
    | some reserve =>
      simp only [decide_eq_false_iff_not, not_not]
      unfold merkleRootOf
      simp only [if_true]
      constructor
      · intro h
        rw [Option.map_eq_some_iff] at h
        obtain ⟨root, h1, h2⟩ := h
        exact .inr ⟨commit, root, reserve, hcm, (hres _).1 hr, (hroot _ (by simpa using hne)).1 h1, h2.symm⟩
      · rintro (⟨h, _⟩ | ⟨c, root, r, h1, h2, h3, h4⟩)
        · exact absurd hcm (h _)
        · have e1 := huniq c h1
          have e2 := (hres r).2 h2
          rw [hr] at e2
          obtain rfl := Option.some.inj e2
          rw [(hroot _ (by simpa using hne)).2 h3, ← e1, h4]
          rfl

theorem insertAll_spec (hs : List Hash) : ∀ set : List Hash, set.Nodup → (insertAll set hs).Nodup ∧ (insertAll set hs).toFinset = set.toFinset ∪ hs.toFinset := by
  induction hs with
  | nil => intro set h; simp [insertAll, h]
  | cons h hs ih =>
    intro set hn
    unfold insertAll
    by_cases hm : h ∈ set
    · have hm' : set.contains h = true := by simpa using hm
      rw [if_pos hm']
      obtain ⟨h1, h2⟩ := ih set hn
      refine ⟨h1, ?_⟩
      rw [h2, List.toFinset_cons, Finset.union_insert, Finset.insert_eq_of_mem]
      simp [hm]
    · have hm' : ¬ set.contains h = true := by simpa using hm
      rw [if_neg hm']
      obtain ⟨h1, h2⟩ := ih (h :: set) (List.nodup_cons.2 ⟨hm, hn⟩)
      refine ⟨h1, ?_⟩
      rw [h2, List.toFinset_cons, List.toFinset_cons, Finset.union_insert, Finset.insert_union]

/-- The temporary BIP50 limit counts distinct hashes. -/
theorem C54_hash_limit (v : View) (txs : List Tx) : isHashLimitExceeded v txs = true ↔ 4500 < (blockHashes v.txid txs).card := by
  unfold isHashLimitExceeded blockHashes
  cases txs with
  | nil => simp
  | cons t ts =>
    simp only [decide_eq_true_eq, List.tail_cons]
    obtain ⟨h1, h2⟩ := insertAll_spec (ts.flatMap fun t => v.txid t :: t.inputs.map fun i => i.point.hash) [v.txid t] (by simp)
    rw [← List.toFinset_card_of_nodup h1, h2]
    have : [v.txid t].toFinset ∪ (ts.flatMap fun t => v.txid t :: t.inputs.map fun i => i.point.hash).toFinset =
        (List.map v.txid (t :: ts) ++ ts.flatMap fun t => t.inputs.map fun i => i.point.hash).toFinset := by
      ext x
      simp only [Finset.mem_union, List.mem_toFinset, List.mem_flatMap, List.mem_append, List.mem_map, List.mem_cons,
        List.not_mem_nil, or_false]
      constructor
      · rintro (rfl | ⟨a, ha, rfl | ⟨i, hi, rfl⟩⟩)
        · exact .inl ⟨t, .inl rfl, rfl⟩
        · exact .inl ⟨a, .inr ha, rfl⟩
        · exact .inr ⟨a, ha, i, hi, rfl⟩
      · rintro (⟨a, rfl | ha, rfl⟩ | ⟨a, ha, i, hi, rfl⟩)
        · exact .inl rfl
        · exact .inr ⟨a, ha, .inl rfl⟩
        · exact .inr ⟨a, ha, .inr ⟨i, hi, rfl⟩⟩
    rw [this]

/-- The contextual block check: a block passes exactly if every active rule holds. -/
theorem C54_check (v : View) (c : Ctx) (b : Block) (identity : Bool) (hne : b.txs ≠ []) (hs : b.Sized)
    (hl : (b.toData true).length < 2 ^ 61) (hl' : (b.toData false).length < 2 ^ 61) (hh : c.height < 2 ^ 63)
    (hok : ∀ t ∈ b.txs, ∀ o ∈ t.outputs, OpsOK o.script.ops ∧ (opsData o.script.ops).length < 2 ^ 63)
    (hin : ∀ t ∈ b.txs, t.inputs ≠ [] ∧ ∀ i ∈ t.inputs, OpsOK i.script.ops ∧ (opsData i.script.ops).length < 2 ^ 63)
    (hseg : ∀ t ∈ b.txs, t.segregated = segregatedInputs t.inputs) :
    blockCheckCtx v c b identity = none ↔
      (c.bip141 = true → 3 * (b.toData false).length + (b.toData true).length ≤ 4000000) ∧
      (c.bip34 = true → ∃ t i, b.txs.head? = some t ∧ t.inputs.head? = some i ∧ StartsWithHeight (opsData i.script.ops) c.height) ∧
      (c.bip50 = true → (blockHashes v.txid b.txs).card ≤ 4500) ∧
      (c.bip141 = true → identity = true → WitnessCommitted v.wtxid v.pair b.txs) ∧
      ∀ t ∈ b.txs, Final t c.height (if c.bip113 then c.mtp else c.timestamp).toNat := by
  have hw : b.weight = 3 * (b.toData false).length + (b.toData true).length := by
    have h1 := Block.size_ok hs false (by omega)
    have h2 := Block.size_ok hs true (by omega)
    have hmax : maxSize = 2 ^ 64 - 1 := rfl
    unfold Block.weight
    rw [h1, h2]
    unfold cadd cmul
    omega
  have hmw : maxBlockWeight = 4000000 := rfl
  have h34 : isInvalidCoinbaseScript b.txs c.height = false ↔
      ∃ t i, b.txs.head? = some t ∧ t.inputs.head? = some i ∧ StartsWithHeight (opsData i.script.ops) c.height := by
    cases hb : b.txs with
    | nil => exact absurd hb hne
    | cons t ts =>
      have := hin t (by rw [hb]; simp)
      have hdef : isInvalidCoinbaseScript (t :: ts) c.height = match t.inputs with
          | i :: _ => !coinbasePattern i.script.ops c.height
          | [] => false := rfl
      rw [hdef]
      cases hi : t.inputs with
      | nil => exact absurd hi this.1
      | cons i is =>
        have hi' := this.2 i (by rw [hi]; simp)
        show (!coinbasePattern i.script.ops c.height) = false ↔ _
        rw [Bool.not_eq_false', C53_height _ _ hi'.1 hi'.2 hh]
        simp [hi]
  have hfin : firstError (txCheckCtx c) b.txs = none ↔ ∀ t ∈ b.txs, Final t c.height (if c.bip113 then c.mtp else c.timestamp).toNat := by
    rw [firstError_none]
    refine forall₂_congr fun t _ => ?_
    unfold txCheckCtx
    split
    · rename_i h
      rw [C26_absolute] at h
      simp [h]
    · rename_i h
      rw [C26_absolute, not_not] at h
      simp [h]
  have hwc := C54_rule v b.txs hne hok hseg
  have hhl := C54_hash_limit v b.txs
  unfold blockCheckCtx
  constructor
  · intro h
    have n1 : ¬ (c.bip141 && decide (b.weight > maxBlockWeight)) = true := by intro hx; rw [if_pos hx] at h; simp at h
    rw [if_neg n1] at h
    have n2 : ¬ (c.bip34 && isInvalidCoinbaseScript b.txs c.height) = true := by intro hx; rw [if_pos hx] at h; simp at h
    rw [if_neg n2] at h
    have n3 : ¬ (c.bip50 && isHashLimitExceeded v b.txs) = true := by intro hx; rw [if_pos hx] at h; simp at h
    rw [if_neg n3] at h
    have n4 : ¬ (c.bip141 && identity && isInvalidWitnessCommitment v b.txs) = true := by intro hx; rw [if_pos hx] at h; simp at h
    rw [if_neg n4, hfin] at h
    refine ⟨?_, ?_, ?_, ?_, h⟩
    · intro hx; simp [hx] at n1; omega
    · intro hx; rw [← h34]; simpa [hx] using n2
    · intro hx; simp only [hx, Bool.true_and] at n3; rw [hhl] at n3; omega
    · intro hx hy; rw [← hwc]; simpa [hx, hy] using n4
  · rintro ⟨h1, h2, h3, h4, h5⟩
    rw [if_neg, if_neg, if_neg, if_neg, hfin]
    · exact h5
    · intro hx
      simp only [Bool.and_eq_true] at hx
      have := hwc.2 (h4 hx.1.1 hx.1.2)
      rw [hx.2] at this; cases this
    · intro hx
      simp only [Bool.and_eq_true] at hx
      have := hhl.1 hx.2
      have := h3 hx.1
      omega
    · intro hx
      simp only [Bool.and_eq_true] at hx
      have := h34.2 (h2 hx.1)
      rw [hx.2] at this; cases this
    · intro hx
      simp only [Bool.and_eq_true, decide_eq_true_eq] at hx
      have := h1 hx.1
      omega

/-! Non-vacuity: a coinbase with two commitment outputs, of which the last counts. -/
def commitScript (h : Hash) : Script := Script.ofOps [{ code := 106 }, { code := 36, data := [0xaa, 0x21, 0xa9, 0xed] ++ h.bytes }]
def commitTx : Tx :=
  Tx.make 1 [{ point := { hash := nullHash, index := 0xffffffff }, script := Script.ofOps [{ code := 2, data := [0, 1] }],
               witness := Witness.ofStack [(toyHash 5).bytes], sequence := 0xffffffff }]
    [{ value := 1, script := commitScript (toyHash 42) }, { value := 1, script := commitScript (toyHash 99) }, { value := 1, script := Script.ofOps [] }] 3

example : isInvalidWitnessCommitment toyView [commitTx] = false ∧ witnessCommitment [commitTx] = some (toyHash 99) ∧
    blockCheckCtx toyView { height := 256, timestamp := 0, mtp := 0, bip34 := true, bip141 := true } (toyBlock [commitTx]) true = none ∧
    blockCheckCtx toyView { height := 257, timestamp := 0, mtp := 0, bip34 := true, bip141 := true } (toyBlock [commitTx]) true = some .coinbase_height_mismatch ∧
    isInvalidWitnessCommitment toyView [toySpend, commitTx] = true := by decide +kernel

end Verif.Validate
