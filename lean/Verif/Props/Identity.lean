import Verif.Spec.Identity
import Verif.Props.View
/-!
# C61: transaction and block identity
-/
namespace Verif.Ident
open Verif Validate Views Verif.Spec

/-- Every cached hash is that of the transaction. -/
structure Correct (H : Bytes → Hash) (t : Tx) (c : TxCache) : Prop where
  nominal : ∀ h, c.nominal = some h → h = txid H t
  witness : ∀ h, c.witness = some h → h = wtxid H t

theorem correct_empty (H : Bytes → Hash) (t : Tx) : Correct H t {} := ⟨by simp, by simp⟩

theorem plain_data {t : Tx} (h : t.segregated = false) (w : Bool) : t.toData w = t.toData false := by
  simp [Tx.toData, h]

theorem hash_correct {H : Bytes → Hash} {t : Tx} {c : TxCache} (h : Correct H t c) (w : Bool) : hash H t c w = identifier H t w := by
  have hn := h.nominal
  have hw := h.witness
  unfold hash identifier
  cases hs : t.segregated with
  | true =>
    rw [if_pos rfl]
    cases w with
    | true =>
      rw [if_pos rfl, if_pos rfl]
      cases hc : c.witness with
      | some x => exact hw x hc
      | none =>
        dsimp only
        unfold wtxid
        by_cases hi : isCoinbase t = true
        · rw [if_pos hi, if_pos ⟨hs, hi⟩]
        · rw [if_neg hi, if_neg (fun k => hi k.2)]
    | false =>
      rw [if_neg (by simp), if_neg (by simp)]
      cases hc : c.nominal with
      | some x => exact hn x hc
      | none => rfl
  | false =>
    rw [if_neg (by simp)]
    have e : (if w then wtxid H t else txid H t) = H (t.toData false) := by
      cases w with
      | true => rw [if_pos rfl]; unfold wtxid; rw [if_neg (by simp [hs]), plain_data hs]
      | false => rw [if_neg (by simp)]; rfl
    rw [e]
    cases hc : c.nominal with
    | some x => exact hn x hc
    | none => dsimp only; rw [plain_data hs]

theorem step_correct {H : Bytes → Hash} {t : Tx} {c : TxCache} (h : Correct H t c) (k : Call) :
    (step H t c k).1 = identifier H t (match k with | .hash w => w | .getHash w => w) ∧ Correct H t (step H t c k).2 := by
  cases k with
  | hash w => exact ⟨hash_correct h w, h⟩
  | getHash w =>
    have hn := h.nominal
    have hw := h.witness
    have hh := hash_correct h w
    simp only [step, getHash]
    cases w with
    | true =>
      simp only [if_true]
      cases hc : c.witness with
      | some x => exact ⟨hw x hc, h⟩
      | none => exact ⟨hh, hn, by rintro _ ⟨⟩; exact hh⟩
    | false =>
      simp only [Bool.false_eq_true, if_false]
      cases hc : c.nominal with
      | some x => exact ⟨hn x hc, h⟩
      | none => exact ⟨hh, by rintro _ ⟨⟩; exact hh, hw⟩

/-- Through any history of calls, whatever is cached when, every result is the identifier asked for. -/
theorem C61_history (H : Bytes → Hash) (t : Tx) (c : TxCache) (h : Correct H t c) (ks : List Call) :
    run H t c ks = ks.map fun k => identifier H t (match k with | .hash w => w | .getHash w => w) := by
  induction ks generalizing c with
  | nil => rfl
  | cons k ks ih =>
    obtain ⟨h1, h2⟩ := step_correct h k
    simp only [run, List.map_cons, h1, ih _ h2]

/-- Likewise for headers. -/
theorem C61_header (H : Bytes → Hash) (x : Header) (c : Option Hash) (h : ∀ y, c = some y → y = H x.toData) :
    headerHash H x c = H x.toData ∧ (headerGetHash H x c).1 = H x.toData ∧ (headerGetHash H x c).2 = some (H x.toData) := by
  cases c with
  | none => exact ⟨rfl, rfl, rfl⟩
  | some y => have := h y rfl; subst this; exact ⟨rfl, rfl, rfl⟩

theorem sizeVariable_ok (n : Nat) (h : n < 2 ^ 64) (tail : Bytes) :
    sizeVariable ((writeVariable n ++ tail).headD 0) = (writeVariable n).length := by
  rw [writeVariable_length]
  unfold writeVariable variableSize
  split
  · rename_i h1
    have e : (UInt8.ofNat n).toNat = n := by rw [UInt8.toNat_ofNat']; omega
    have k : ∀ m : UInt8, 0xfd ≤ m.toNat → UInt8.ofNat n ≠ m := fun m hm hc => by rw [← hc, e] at hm; omega
    have k1 := k 0xff (by decide)
    have k2 := k 0xfe (by decide)
    have k3 := k 0xfd (by decide)
    show sizeVariable (UInt8.ofNat n) = 1
    unfold sizeVariable
    simp only [if_neg k1, if_neg k2, if_neg k3]
  · split
    · rfl
    · split <;> rfl

/-- The hash taken from segregated wire bytes without the witnesses is the transaction identifier. -/
theorem C61_desegregated (H : Bytes → Hash) (t : Tx) (hs : t.segregated = true) (tail : Bytes) :
    desegregatedHash H (t.toData true).length (t.toData false).length (t.toData true ++ tail) = txid H t := by
  unfold desegregatedHash txid
  have hm : marks t = 2 := by simp [marks, hs]
  have hb := at_body (t := t) (tail := tail)
  rw [hm] at hb
  rw [at_version, at_lock, show 6 = 4 + 2 from rfl, hb, stripped_eq]
  congr 3
  refine take_of rfl ?_
  simp
  omega

theorem setTx_correct (H : Bytes → Hash) (tail : Bytes) (ts : List Tx) (first : Bool) (cs : List TxCache) (hlen : cs.length = ts.length)
    (hsz : ∀ t ∈ ts, ∀ w, t.serializedSize w = (t.toData w).length)
    (hcb : ∀ i t, ts[i]? = some t → (first = false ∨ i ≠ 0) → t.segregated = true → isCoinbase t = false)
    (hcs : ∀ (i : Nat) t c, ts[i]? = some t → cs[i]? = some c → Correct H t c) :
    (setTxHashes H first (ts.flatMap (fun t => t.toData true) ++ tail) (ts.zip cs)).length = ts.length ∧
    ∀ (i : Nat) t c, ts[i]? = some t → (setTxHashes H first (ts.flatMap (fun t => t.toData true) ++ tail) (ts.zip cs))[i]? = some c →
      Correct H t c ∧ c.nominal = some (txid H t) := by
  induction ts generalizing first cs with
  | nil => exact ⟨by simp [setTxHashes], by simp⟩
  | cons t ts ih =>
    match cs, hlen with
    | c :: cs, hlen =>
      have e : (List.flatMap (fun t => t.toData true) (t :: ts)) ++ tail = t.toData true ++ (ts.flatMap (fun t => t.toData true) ++ tail) := by simp
      simp only [List.zip_cons_cons, setTxHashes, e]
      have hs1 := hsz t (by simp)
      have hc0 := hcs 0 t c rfl rfl
      rw [hs1 true, hs1 false, List.take_left' rfl, List.drop_left' rfl]
      obtain ⟨i1, i2⟩ := ih false cs (by simpa using hlen) (fun x hx => hsz x (by simp [hx]))
        (fun i x hx _ => hcb (i + 1) x (by simpa using hx) (.inr (by omega)))
        (fun i x y hx hy => hcs (i + 1) x y (by simpa using hx) (by simpa using hy))
      refine ⟨by simp [i1], ?_⟩
      intro i x y hx hy
      cases i with
      | succ i => exact i2 i x y (by simpa using hx) (by simpa using hy)
      | zero =>
        simp only [List.getElem?_cons_zero, Option.some.injEq] at hx hy
        subst hx; subst hy
        cases hsg : t.segregated with
        | false =>
          rw [if_neg (by simp)]
          have : H (t.toData true) = txid H t := by rw [plain_data hsg]; rfl
          exact ⟨⟨by rintro _ ⟨⟩; exact this, hc0.witness⟩, by rw [this]⟩
        | true =>
          rw [if_pos rfl, C61_desegregated H t hsg]
          cases first with
          | true => exact ⟨⟨by rintro _ ⟨⟩; rfl, hc0.witness⟩, rfl⟩
          | false =>
            rw [if_pos (by rfl)]
            have := hcb 0 t rfl (.inl rfl) hsg
            exact ⟨⟨by rintro _ ⟨⟩; rfl, by rintro _ ⟨⟩; unfold wtxid; rw [if_neg (by simp [this])]⟩, rfl⟩

/-- After `set_hashes` with the bytes a block was parsed from (in the mode in which they are its serialisation), the cached hashes are
those of the block and of its transactions; only the first transaction may be a coinbase with witnesses. -/
theorem C61_set_hashes (H : Bytes → Hash) (b : Block) (tail : Bytes) (cs : List TxCache) (hlen : cs.length = b.txs.length) (hs : b.Sized)
    (hl : (b.toData true ++ tail).length < 2 ^ 63) (hextra : isExtraCoinbases b.txs = false)
    (hcs : ∀ (i : Nat) t c, b.txs[i]? = some t → cs[i]? = some c → Correct H t c) :
    (setHashes H b cs (b.toData true ++ tail)).1 = some (H b.header.toData) ∧
    (setHashes H b cs (b.toData true ++ tail)).2.length = b.txs.length ∧
    ∀ (i : Nat) t c, b.txs[i]? = some t → (setHashes H b cs (b.toData true ++ tail)).2[i]? = some c →
      Correct H t c ∧ c.nominal = some (txid H t) := by
  have e : b.toData true ++ tail = b.header.toData ++ (writeVariable b.txs.length ++ (b.txs.flatMap (fun t => t.toData true) ++ tail)) := by
    unfold Block.toData; simp
  have hcount : b.txs.length < 2 ^ 64 := by
    have h1 : ∀ ts : List Tx, ts.length ≤ (ts.flatMap (fun t => t.toData true)).length := by
      intro ts
      induction ts with
      | nil => simp
      | cons t ts ih =>
        have := full_length t
        simp only [List.length_cons, List.flatMap_cons, List.length_append]
        omega
    have := h1 b.txs
    rw [e] at hl
    simp only [List.length_append] at hl
    omega
  unfold setHashes
  dsimp only
  rw [e, List.take_left' (header_length _), List.drop_left' (header_length _), sizeVariable_ok _ hcount, List.drop_left' rfl]
  refine ⟨rfl, setTx_correct H tail b.txs true cs hlen ?_ ?_ hcs⟩
  · intro t ht w
    exact Tx.size_ok (hs t ht) w (tx_data_lt hl ht _)
  · intro i t ht hi _
    match hb : b.txs with
    | [] => rw [hb] at ht; cases ht
    | u :: us =>
      rw [hb] at ht hextra
      cases i with
      | zero => rcases hi with hi | hi <;> simp at hi
      | succ i =>
        simp only [List.getElem?_cons_succ] at ht
        simp only [isExtraCoinbases, List.any_eq_false] at hextra
        have := hextra t (List.mem_of_getElem? ht)
        simpa using this

/-- The hypotheses are met, and the two identifiers differ. -/
example : (setHashes toyHash exampleBlock [{}, {}] (exampleBlock.toData true)).2.map (fun c => c.nominal) =
      [some (txid toyHash exampleTx), some (txid toyHash exampleTx)] ∧ isExtraCoinbases exampleBlock.txs = false ∧
    (setHashes toyHash exampleBlock [{}, {}] (exampleBlock.toData true)).2.map (fun c => c.witness) =
      [none, some (wtxid toyHash exampleTx)] := by decide +kernel

/-- The mode matters: for a block parsed without witnesses from bytes that carry them, `set_hashes` with those bytes caches hashes
of other bytes. -/
theorem C61_mode_counterexample :
    (Block.read false (RS.init (exampleBlock.toData true))).1.txs.length = 2 ∧
    (setHashes toyHash (Block.read false (RS.init (exampleBlock.toData true))).1 [{}, {}] (exampleBlock.toData true)).2.map (fun c => c.nominal) ≠
      [some (txid toyHash exampleTx), some (txid toyHash exampleTx)] := by decide +kernel

end Verif.Ident
