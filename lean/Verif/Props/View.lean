import Verif.Lemmas.View4
import Verif.Props.Commit
import Verif.Props.Chain
/-!
# C60: a block view says the same as the parsed block

`BlockView.make H data w` is `block_view(data, w)`; `H` is the double sha256 of bytes, arbitrary here.
-/
namespace Verif.Views
open Verif Validate Merkle Verif.Spec

/-- The views of consecutive transactions. -/
def viewsOf (H : Bytes → Hash) (data : Bytes) (w : Bool) : Bool → Nat → List Tx → List TxView
  | _, _, [] => []
  | c, start, t :: ts => rawView H (data.drop start) t c w :: viewsOf H data w false (start + (t.toData true).length) ts

theorem fwd_views (H : Bytes → Hash) (data : Bytes) (w : Bool) : ∀ (ts : List Tx) (start : Nat), (∀ t ∈ ts, Viewable t) →
    FwdAt start (readN (TxView.read H data false w) ts.length) (ts.flatMap fun t => t.toData true) (viewsOf H data w false start ts) := by
  intro ts
  induction ts with
  | nil => intro start _; exact (FwdU.pure _).at _
  | cons t ts ih =>
    intro start h
    rw [List.flatMap_cons]
    refine (fwd_txView H data false w start (h t (by simp))).bind ?_
    exact ((ih (start + (t.toData true).length) fun x hx => h x (by simp [hx])).bind (b := [])
      (f := fun xs => Pure.pure (rawView H (List.drop start data) t false w :: xs)) ((FwdU.pure _).at _)).congr (List.append_nil _) rfl

theorem views_agree (H : Bytes → Hash) (w : Bool) : ∀ (ts : List Tx) (pre tail : Bytes) (c : Bool), (∀ t ∈ ts, Viewable t) →
    let vs := viewsOf H (pre ++ ((ts.flatMap fun t => t.toData true) ++ tail)) w c pre.length ts
    vs.length = ts.length ∧ ∀ (i : Nat) (t : Tx), ts[i]? = some t → ∃ x, vs[i]? = some x ∧
      (∃ rest, x = rawView H (t.toData true ++ rest) t (c && i == 0) w) ∧ Agrees H (c && i == 0) x (seen w t) := by
  intro ts
  induction ts with
  | nil => intro pre tail c _; simp [viewsOf]
  | cons t ts ih =>
    intro pre tail c h
    have ih := ih (pre ++ t.toData true) tail false fun x hx => h x (by simp [hx])
    have e1 : pre ++ (((t :: ts).flatMap fun t => t.toData true) ++ tail) =
      (pre ++ t.toData true) ++ ((ts.flatMap fun t => t.toData true) ++ tail) := by simp
    simp only at ih ⊢
    rw [e1]
    unfold viewsOf
    rw [List.length_append] at ih
    refine ⟨by rw [List.length_cons, List.length_cons, ih.1], ?_⟩
    intro i t' ht
    cases i with
    | zero =>
      simp only [List.getElem?_cons_zero, Option.some.injEq] at ht
      subst ht
      have hd : (pre ++ t.toData true ++ ((ts.flatMap fun t => t.toData true) ++ tail)).drop pre.length =
          t.toData true ++ ((ts.flatMap fun t => t.toData true) ++ tail) := by
        rw [List.append_assoc]; exact List.drop_left' rfl
      rw [hd]
      refine ⟨_, rfl, ⟨_, by rw [beq_self_eq_true, Bool.and_true]⟩, ?_⟩
      simp only [beq_self_eq_true, Bool.and_true]
      exact agrees H t _ c w (h t (by simp))
    | succ i =>
      simp only [List.getElem?_cons_succ] at ht ⊢
      obtain ⟨x, h1, h2, h3⟩ := ih.2 i t' ht
      exact ⟨x, h1, by simpa using h2, by simpa using h3⟩

theorem header_length (h : Header) : h.toData.length = 80 := (Header.size_ok h).symm

theorem make_eq (H : Bytes → Hash) (w : Bool) {b : Block} (hb : ViewableBlock b) (tail : Bytes)
    (hl : (b.toData true ++ tail).length < 2 ^ 63) : BlockView.make H (b.toData true ++ tail) w =
      { buffer := b.toData true ++ tail, witness := w,
        txs := viewsOf H (b.toData true ++ tail) w true (80 + variableSize b.txs.length) b.txs } := by
  have hmc : maxCount = 1000000 := rfl
  have hcount := hb.count
  have hne := hb.some
  unfold BlockView.make
  dsimp only
  generalize hd : b.toData true ++ tail = data at *
  have h80 : FwdU (doSkip 80) b.header.toData () := by
    have := (fwd_doSkip b.header.toData (by rw [header_length]; decide)).U
    rwa [header_length] at this
  have hc := (fwd_readSize maxCount b.txs.length (by omega) hcount).U
  have key : FwdAt 0 (readTxs H data w) (b.toData true)
      (viewsOf H data w true (80 + variableSize b.txs.length) b.txs, true) := by
    unfold Block.toData readTxs
    refine (h80.at _).bind ((hc.at _).bind ?_)
    rw [header_length, writeVariable_length, Nat.zero_add]
    rw [if_neg (by simpa using hne)]
    match hbt : b.txs with
    | [] => exact absurd hbt hne
    | t :: ts =>
      have ht := hb.txs t (by simp [hbt])
      rw [List.flatMap_cons]
      refine (fwd_txView H data true w _ ht).bind ?_
      have := fwd_views H data w ts (80 + variableSize (t :: ts).length + (t.toData true).length) fun x hx => hb.txs x (by simp [hbt, hx])
      refine (this.bind (b := []) ?_).congr (by simp) rfl
      exact ((FwdU.done _).at _).congr rfl rfl
  have hk := key (RS.init data) rfl (init_ok hl) rfl (init_unl hl) (by rw [init_rest, ← hd]; exact List.prefix_append _ _)
  rw [hk.1]
  simp

/-- A view of bytes is valid exactly when they start with the serialisation of a viewable block. -/
theorem C60_accepts (H : Bytes → Hash) (data : Bytes) (w : Bool) (hl : data.length < 2 ^ 63) :
    (BlockView.make H data w).isValid = true ↔ ∃ b tail, ViewableBlock b ∧ data = b.toData true ++ tail := by
  constructor
  · intro hv
    have hback : BwdU (readTxs H data w)
        (fun r b => ∃ h n b', n ≤ maxCount ∧ b = h ++ (writeVariable n ++ b') ∧ h.length = 80 ∧ ((n = 0 ∧ r.1 = []) ∨
          ∃ ts : List Tx, ts.length = n ∧ n ≠ 0 ∧ (∀ t ∈ ts, Viewable t) ∧ b' = ts.flatMap fun t => t.toData true)) := by
      have hmany : ∀ n, BwdU (readN (TxView.read H data false w) n) (fun _ b => ∃ ts : List Tx, ts.length = n ∧
          (∀ t ∈ ts, Viewable t) ∧ b = ts.flatMap fun t => t.toData true) := by
        intro n
        induction n with
        | zero => exact (BwdU.pure _).mono (by rintro _ _ ⟨rfl, rfl⟩; exact ⟨[], rfl, by simp, rfl⟩)
        | succ n ih =>
          refine ((bwd_txView H data false w).bind fun _ => ih.bind fun r => BwdU.pure _).mono ?_
          rintro y b ⟨_, a, b1, rfl, ⟨t, ht, rfl⟩, _, a1, b2, rfl, ⟨ts, hl, hts, rfl⟩, _, rfl⟩
          refine ⟨t :: ts, by simp [hl], ?_, by simp⟩
          intro x hx
          rcases List.mem_cons.mp hx with rfl | hx
          · exact ht
          · exact hts x hx
      unfold readTxs
      refine ((bwd_doSkip (n := 80) (by decide)).U.bind fun _ => (bwd_readSize maxCount).U.bind fun n =>
        BwdU.ite (BwdU.pure _) ((bwd_txView H data true w).bind fun _ => (hmany (n - 1)).bind fun _ => bwd_isGood.U.bind fun _ => BwdU.pure _)).mono ?_
      rintro y b ⟨_, a, b1, rfl, h80, n, a1, b2, rfl, ⟨rfl, _, hn⟩, (⟨rfl, rfl, rfl⟩ | ⟨hn0, _, a2, b3, rfl, ⟨t, ht, rfl⟩, _, a3, b4, rfl,
        ⟨ts, hts, hv, rfl⟩, _, a4, b5, rfl, ⟨_, rfl⟩, _, rfl⟩)⟩
      · exact ⟨a, 0, [], by decide, rfl, h80, .inl ⟨rfl, rfl⟩⟩
      · refine ⟨a, n, _, hn, rfl, h80, .inr ⟨t :: ts, by simp; omega, hn0, ?_, by simp⟩⟩
        intro x hx
        rcases List.mem_cons.mp hx with rfl | hx
        · exact ht
        · exact hv x hx
    unfold BlockView.isValid BlockView.make at hv
    simp only at hv
    generalize hr : readTxs H data w = R at hv hback
    by_cases hg : (R (RS.init data)).2.good = true
    · obtain ⟨_, bs, hp, ⟨h, n, b', hn, rfl, h80, hcase⟩, _⟩ := hback.back (RS.init data) (init_ok hl) (init_unl hl) hg
      rw [init_rest] at hp
      obtain ⟨tail, ht⟩ := hp
      rcases hcase with ⟨_, he⟩ | ⟨ts, hts, hn0, hvs, rfl⟩
      · rw [he] at hv; simp at hv
      · have hdr : ∃ hd : Header, hd.toData = h := by
          obtain ⟨v, hv⟩ := u32_of (b := h.take 4) (by simp [h80])
          obtain ⟨tm, htm⟩ := u32_of (b := (h.drop 68).take 4) (by simp [h80])
          obtain ⟨bt, hbt⟩ := u32_of (b := (h.drop 72).take 4) (by simp [h80])
          obtain ⟨no, hno⟩ := u32_of (b := h.drop 76) (by simp [h80])
          refine ⟨Header.mk v ⟨(h.drop 4).take 32, by simp [h80]⟩ ⟨(h.drop 36).take 32, by simp [h80]⟩ tm bt no true, ?_⟩
          show writeU32 v ++ ((h.drop 4).take 32 ++ ((h.drop 36).take 32 ++ (writeU32 tm ++ (writeU32 bt ++ writeU32 no)))) = h
          rw [hv, htm, hbt, hno]
          rw [show h.drop 76 = (h.drop 72).drop 4 by simp, List.take_append_drop, show h.drop 72 = (h.drop 68).drop 4 by simp,
            List.take_append_drop, show h.drop 68 = (h.drop 36).drop 32 by simp, List.take_append_drop,
            show h.drop 36 = (h.drop 4).drop 32 by simp, List.take_append_drop, List.take_append_drop]
        obtain ⟨hd, rfl⟩ := hdr
        refine ⟨{ header := hd, txs := ts }, tail, ⟨by show ts.length ≤ maxCount; omega, ?_, hvs⟩, ?_⟩
        · rintro rfl; exact hn0 hts.symm
        · rw [← ht]; unfold Block.toData; simp [hts]
    · exfalso
      have : (R (RS.init data)).1.2 = false ∨ (R (RS.init data)).1.1 = [] := by
        rw [← hr] at hg ⊢
        unfold readTxs at hg ⊢
        simp only [bind_run] at hg ⊢
        split
        · right; rfl
        · rename_i h0
          rw [if_neg h0] at hg
          left
          simpa [isGood, bind_run] using hg
      rcases this with h | h
      · rw [h] at hv; simp at hv
      · rw [h] at hv; simp at hv
  · rintro ⟨b, tail, hb, rfl⟩
    rw [make_eq H w hb tail hl]
    unfold BlockView.isValid
    cases hbt : b.txs with
    | nil => exact absurd hbt hb.some
    | cons t ts => rfl

theorem block_split (b : Block) (tail : Bytes) : b.toData true ++ tail =
    (b.header.toData ++ writeVariable b.txs.length) ++ ((b.txs.flatMap fun t => t.toData true) ++ tail) := by
  unfold Block.toData; simp

theorem block_pre (b : Block) : 80 + variableSize b.txs.length = (b.header.toData ++ writeVariable b.txs.length).length := by
  rw [List.length_append, header_length, writeVariable_length]

theorem views_index (H : Bytes → Hash) (w : Bool) {b : Block} (hb : ViewableBlock b) (tail : Bytes)
    (hl : (b.toData true ++ tail).length < 2 ^ 63) :
    (BlockView.make H (b.toData true ++ tail) w).txs.length = b.txs.length ∧
    ∀ (i : Nat) (t : Tx), b.txs[i]? = some t → ∃ x, (BlockView.make H (b.toData true ++ tail) w).txs[i]? = some x ∧
      (∃ rest, x = rawView H (t.toData true ++ rest) t (i == 0) w) ∧ Agrees H (i == 0) x (seen w t) := by
  rw [make_eq H w hb tail hl]
  have := views_agree H w b.txs (b.header.toData ++ writeVariable b.txs.length) tail true hb.txs
  simp only [← block_split, ← block_pre, Bool.true_and] at this
  exact this

/-- Each transaction view says the same as the transaction object parsed in the same mode (with witnesses: `seen true t = t`,
without: the stripped transaction). -/
theorem C60_transactions (H : Bytes → Hash) (w : Bool) (b : Block) (hb : ViewableBlock b) (tail : Bytes)
    (hl : (b.toData true ++ tail).length < 2 ^ 63) :
    (BlockView.make H (b.toData true ++ tail) w).txs.length = b.txs.length ∧
    ∀ (i : Nat) (t : Tx), b.txs[i]? = some t → ∃ x, (BlockView.make H (b.toData true ++ tail) w).txs[i]? = some x ∧
      Agrees H (i == 0) x (seen w t) := by
  obtain ⟨h1, h2⟩ := views_index H w hb tail hl
  exact ⟨h1, fun i t ht => by obtain ⟨x, k1, _, k3⟩ := h2 i t ht; exact ⟨x, k1, k3⟩⟩

/-- Mapping agreeing accessors over the views. -/
theorem map_views {α : Type} {vs : List TxView} {ts : List Tx} (hlen : vs.length = ts.length) (f : TxView → α) (g : Nat → Tx → α)
    (h : ∀ (i : Nat) (t : Tx), ts[i]? = some t → ∃ x, vs[i]? = some x ∧ f x = g i t) : vs.map f = ts.zipIdx.map fun p => g p.2 p.1 := by
  apply List.ext_getElem?
  intro i
  rw [List.getElem?_map, List.getElem?_map, List.getElem?_zipIdx]
  cases ht : ts[i]? with
  | none =>
    have : vs[i]? = none := by
      rw [List.getElem?_eq_none_iff] at ht ⊢; omega
    rw [this]; rfl
  | some t =>
    obtain ⟨x, h1, h2⟩ := h i t ht
    rw [h1]; simp [h2]

theorem zipIdx_const {α β : Type} (l : List α) (g : α → β) : (l.zipIdx.map fun p => g p.1) = l.map g := by
  rw [show (fun p : α × Nat => g p.1) = g ∘ Prod.fst from rfl, ← List.map_map]
  simp

theorem map_agree {α : Type} {H : Bytes → Hash} {w : Bool} {b : Block} (hb : ViewableBlock b) {tail : Bytes}
    (hl : (b.toData true ++ tail).length < 2 ^ 63) (f : TxView → α) (g : Tx → α)
    (h : ∀ c x t, t ∈ b.txs → Agrees H c x (seen w t) → f x = g t) :
    (BlockView.make H (b.toData true ++ tail) w).txs.map f = b.txs.map g := by
  obtain ⟨h1, h2⟩ := C60_transactions H w b hb tail hl
  rw [map_views h1 f (fun _ t => g t) ?_, zipIdx_const]
  intro i t ht
  obtain ⟨x, k1, k2⟩ := h2 i t ht
  exact ⟨x, k1, h _ x t (List.mem_of_getElem? ht) k2⟩

theorem flatMap_agree {α β : Type} (f : α → List β) {γ : Type} (g : γ → List β) {l : List α} {m : List γ} (h : l.map f = m.map g) :
    l.flatMap f = m.flatMap g := by
  rw [List.flatMap_def, List.flatMap_def, h]

theorem foldl_add_sum (l : List Nat) (n : Nat) : l.foldl (· + ·) n = n + l.sum := by
  induction l generalizing n with
  | nil => rfl
  | cons a l ih => rw [List.foldl_cons, ih, List.sum_cons]; omega

/-- The block view serialises, measures and hashes like the block; its serialisation with witnesses is the buffer itself. -/
theorem C60_block (H : Bytes → Hash) (w : Bool) (b : Block) (hb : ViewableBlock b) (tail : Bytes)
    (hl : (b.toData true ++ tail).length < 2 ^ 63) :
    let v := BlockView.make H (b.toData true ++ tail) w
    v.toData false = b.toData false ∧ v.toData true = b.toData true ++ tail ∧
    (∀ x, v.serializedSize x = (v.toData x).length) ∧
    v.hash H = H b.header.toData ∧ v.isSegregated = (seenBlock w b).txs.any (fun t => t.segregated) := by
  intro v
  have hvb : v.buffer = b.toData true ++ tail := rfl
  have hvw : v.witness = w := rfl
  have hlen : v.txs.length = b.txs.length := (C60_transactions H w b hb tail hl).1
  have h80 : v.buffer.take 80 = b.header.toData := by
    rw [hvb]; unfold Block.toData; rw [List.append_assoc]; exact List.take_left' (header_length _)
  have hdat : v.txs.map (fun t => t.toData false) = b.txs.map fun t => t.toData false :=
    map_agree hb hl _ _ fun c x t _ ha => by rw [ha.data, seen_data]; rfl
  have hsz : v.txs.map (fun t => t.serializedSize false) = b.txs.map fun t => (t.toData false).length :=
    map_agree hb hl _ _ fun c x t _ ha => by rw [ha.size, seen_data]; rfl
  have hseg : v.txs.map (fun t => t.segregated) = b.txs.map fun t => (t.segregated && w) :=
    map_agree hb hl _ _ fun c x t _ ha => by rw [ha.segregated]; exact (seen_inputs w t).2.2.2.2.1
  have e1 : v.toData false = b.toData false := by
    unfold BlockView.toData
    rw [if_neg (by simp), h80, hlen, flatMap_agree _ _ hdat]; rfl
  refine ⟨e1, rfl, ?_, ?_, ?_⟩
  · intro x
    cases x with
    | true => rfl
    | false =>
      rw [e1]
      unfold BlockView.serializedSize Block.toData
      rw [if_neg (by simp), foldl_add_sum, hsz, hlen]
      simp only [List.length_append, header_length, writeVariable_length, length_flatMap']
      omega
  · unfold BlockView.hash; rw [h80]
  · unfold BlockView.isSegregated seenBlock
    rw [hvw, List.any_map]
    have e2 : v.txs.any (fun t => t.segregated) = (v.txs.map fun t => t.segregated).any id := by rw [List.any_map]; rfl
    rw [e2, hseg, List.any_map]
    have e3 : ((fun t : Tx => t.segregated) ∘ seen w) = fun t => (t.segregated && w) := by
      funext t; exact (seen_inputs w t).2.2.2.2.1
    rw [e3]
    have e4 : (id ∘ fun t : Tx => (t.segregated && w)) = fun t => (t.segregated && w) := rfl
    rw [e4]
    cases w with
    | true => simp
    | false => simp

/-! ### identification -/

theorem seen_sized {t : Tx} (h : t.Sized) (w : Bool) : (seen w t).Sized := by
  cases w with
  | true => exact h
  | false =>
    refine ⟨?_, h.2⟩
    intro i hi
    simp only [seen, Tx.stripped, Bool.false_eq_true, if_false, List.mem_map] at hi
    obtain ⟨j, hj, rfl⟩ := hi
    exact ⟨(h.1 j hj).1, rfl⟩

theorem seen_coinbase (w : Bool) (t : Tx) : isCoinbase (seen w t) = isCoinbase t := by
  have h := (seen_inputs w t).2.2.2.2.2.2.2
  unfold isCoinbase
  match h1 : (seen w t).inputs, h2 : t.inputs with
  | [], [] => rfl
  | [a], [b] => rw [h1, h2] at h; simp only [List.map_cons, List.map_nil, List.cons.injEq, and_true] at h; dsimp only; rw [h]
  | a :: b :: l, a' :: b' :: l' => rfl
  | [], _ :: _ => rw [h1, h2] at h; simp at h
  | _ :: _, [] => rw [h1, h2] at h; simp at h
  | [_], _ :: _ :: _ => rw [h1, h2] at h; simp at h
  | _ :: _ :: _, [_] => rw [h1, h2] at h; simp at h

theorem input_min (i : Input) : 41 ≤ i.toData.length := by
  have h1 : i.point.toData.length = 36 := (Point.size_ok i.point).symm
  have h2 : (i.script.toData true).length ≠ 0 := by
    have : (writeVariable (i.script.serializedSize false)).length ≠ 0 := by
      rw [writeVariable_length]; unfold variableSize; repeat' split
      all_goals decide
    simp only [Script.toData, if_true, List.length_append]
    omega
  simp only [Input.toData, List.length_append, writeU32_length]
  omega

/-- A transaction of 64 bytes without witnesses has one input (if any). -/
theorem one_input_of_64 {t : Tx} (h : (t.toData false).length = 64) (hn : t.inputs ≠ []) : ∃ i, t.inputs = [i] := by
  match hi : t.inputs with
  | [] => exact absurd hi hn
  | [i] => exact ⟨i, rfl⟩
  | i :: j :: l =>
    exfalso
    have hl : (t.toData false).length = 4 + (bodyData t).length + 4 := by rw [stripped_eq]; simp; omega
    have hb := body_length t
    have h1 := input_min i
    have h2 := input_min j
    have h3 : (insData t).length = i.toData.length + (j.toData.length + (l.flatMap Input.toData).length) := by
      simp [insData, hi]
    omega

theorem all_agree {H : Bytes → Hash} {w : Bool} {b : Block} (hb : ViewableBlock b) {tail : Bytes}
    (hl : (b.toData true ++ tail).length < 2 ^ 63) (f : TxView → Bool) (g : Tx → Bool)
    (h : ∀ c x t, t ∈ b.txs → Agrees H c x (seen w t) → f x = g t) :
    (BlockView.make H (b.toData true ++ tail) w).txs.all f = b.txs.all g := by
  have := map_agree hb hl f g h
  have e1 := List.all_map (f := f) (p := id) (l := (BlockView.make H (b.toData true ++ tail) w).txs)
  have e2 := List.all_map (f := g) (p := id) (l := b.txs)
  exact e1.symm.trans ((congrArg (List.all · id) this).trans e2)

theorem tx_data_lt {b : Block} {tail : Bytes} (hl : (b.toData true ++ tail).length < 2 ^ 63) {t : Tx} (ht : t ∈ b.txs) (x : Bool) :
    (t.toData x).length < 2 ^ 64 := by
  have h1 : (t.toData true).length ≤ (b.toData true ++ tail).length := by
    obtain ⟨p, q, hpq⟩ := List.append_of_mem ht
    rw [block_split]
    simp only [List.length_append, hpq, List.flatMap_append, List.flatMap_cons]
    omega
  have h2 : (t.toData false).length ≤ (t.toData true).length := by
    have hb := body_length t
    have hf := full_length t
    have hl : (t.toData false).length = 4 + (bodyData t).length + 4 := by rw [stripped_eq]; simp; omega
    omega
  cases x <;> omega

/-- `identify()` of the view is `identify()` of the block parsed in the same mode. -/
theorem C60_identify (H : Bytes → Hash) (w : Bool) (b : Block) (hb : ViewableBlock b) (hs : b.Sized) (tail : Bytes)
    (hl : (b.toData true ++ tail).length < 2 ^ 63) (V : Validate.View) (hV : ∀ t, V.txid t = H (t.toData false)) :
    (BlockView.make H (b.toData true ++ tail) w).identify V.pair V.build = blockIdentify V (seenBlock w b) := by
  obtain ⟨hlen, hidx⟩ := C60_transactions H w b hb tail hl
  have hids : (BlockView.make H (b.toData true ++ tail) w).txs.map (fun t => t.hash false) = (seenBlock w b).txs.map V.txid := by
    unfold seenBlock
    rw [List.map_map]
    exact map_agree hb hl _ _ fun c x t _ ha => by rw [ha.txid]; exact (hV _).symm
  have hall : (BlockView.make H (b.toData true ++ tail) w).txs.all (fun t => t.serializedSize false == 64) =
      (seenBlock w b).txs.all fun t => t.serializedSize false == 64 := by
    unfold seenBlock
    rw [List.all_map]
    refine all_agree hb hl _ _ fun c x t ht ha => ?_
    rw [ha.size]
    have := Tx.size_ok (seen_sized (hs t ht) w) false (by rw [seen_data]; exact tx_data_lt hl ht _)
    simp only [Function.comp, this]
  have hbuf : (BlockView.make H (b.toData true ++ tail) w).buffer = b.toData true ++ tail := rfl
  generalize BlockView.make H (b.toData true ++ tail) w = v at *
  unfold BlockView.identify blockIdentify
  match hbt : b.txs with
  | [] => exact absurd hbt hb.some
  | t :: ts =>
    obtain ⟨x, hx, ha⟩ := hidx 0 t (by rw [hbt]; rfl)
    match hvt : v.txs with
    | [] => rw [hvt] at hx; cases hx
    | y :: ys =>
      rw [hvt] at hx
      simp only [List.getElem?_cons_zero, Option.some.injEq] at hx
      subst hx
      simp only [List.isEmpty_cons, Bool.false_eq_true, if_false]
      have e32 : v.isMalleated32 = Merkle.isMalleated32 ((seenBlock w b).txs.map V.txid) := by
        unfold BlockView.isMalleated32; rw [hids]
      have e64 : v.isMalleated64 = Validate.isMalleated64 (seenBlock w b).txs := by
        unfold BlockView.isMalleated64 BlockView.isMalleable64 Validate.isMalleated64 Validate.isMalleable64
        rw [hall, hvt]
        have e : (seenBlock w b).txs = seen w t :: ts.map (seen w) := by simp [seenBlock, hbt]
        rw [e]
        simp only [List.isEmpty_cons, Bool.not_false, Bool.true_and, isFirstNonCoinbase]
        by_cases h64 : (List.all (seen w t :: ts.map (seen w)) fun t => t.serializedSize false == 64) = true
        · rw [h64]
          simp only [Bool.and_true]
          congr 1
          have ht : t ∈ b.txs := by simp [hbt]
          have hsz := Tx.size_ok (seen_sized (hs t ht) w) false (by rw [seen_data]; exact tx_data_lt hl ht _)
          simp only [List.all_cons, Bool.and_eq_true, beq_iff_eq] at h64
          rw [h64.1] at hsz
          have hne : (seen w t).inputs ≠ [] := by
            intro hnil
            have := (seen_inputs w t).2.2.2.1
            rw [hnil] at this
            exact (hb.txs t ht).inputs (List.length_eq_zero_iff.1 this.symm)
          obtain ⟨i, hi⟩ := one_input_of_64 hsz.symm hne
          rw [ha.nullPoint i [] hi]
          unfold isCoinbase
          rw [hi]
        · rw [Bool.not_eq_true] at h64
          rw [h64]; simp
      have eroot : v.headerMerkleRoot = (seenBlock w b).header.merkleRoot := by
        unfold BlockView.headerMerkleRoot
        rw [hvt, hbuf]
        have hne : (b.toData true ++ tail).isEmpty = false := by
          have : (b.toData true ++ tail).length ≠ 0 := by
            rw [block_split]; simp only [List.length_append, header_length]; omega
          cases h : (b.toData true ++ tail) with
          | nil => rw [h] at this; exact absurd rfl this
          | cons a l => rfl
        rw [hne]
        simp only [List.isEmpty_cons, Bool.or_self, Bool.false_eq_true, if_false]
        have : (b.toData true ++ tail).drop 36 = b.header.merkleRoot.bytes ++ ((writeU32 b.header.timestamp ++ (writeU32 b.header.bits ++
            writeU32 b.header.nonce)) ++ (writeVariable b.txs.length ++ ((b.txs.flatMap fun t => t.toData true) ++ tail))) := by
          refine drop_of (a := writeU32 b.header.version ++ b.header.previous.bytes) (by unfold Block.toData Header.toData; simp) ?_
          simp [b.header.previous.len]
        rw [this, List.take_left' b.header.merkleRoot.len]
        exact Hash.of_bytes _
      have ehash : v.merkleRootOf V.pair V.build false =
          Validate.merkleRootOf V (seenBlock w b).txs false := by
        unfold BlockView.merkleRootOf Validate.merkleRootOf
        rw [hids]; simp
      rw [e32, e64, eroot, ehash]
      rfl

/-! ### witness commitment -/

theorem committed_eq {o : Output} (h : Short o.script) (rest : Bytes) :
    (if TxView.commitmentPattern (opsData o.script.ops ++ rest) o.script.size then
      some (Hash.of (((opsData o.script.ops ++ rest).drop 6).take 32)) else none) = committedHash o := by
  have hmb := maxBytes_val
  have hlen := (short_toData h).2
  have hle := h.2
  have hl : (opsData o.script.ops).length < 2 ^ 63 := by omega
  have hok := h.1.ops
  unfold TxView.commitmentPattern
  by_cases h38 : 38 > o.script.size
  · rw [if_pos h38]
    simp only [Bool.false_eq_true, if_false]
    symm
    rw [commitment_none hok hl]
    rintro x ⟨hx, r, hr⟩
    have := congrArg List.length hr
    simp only [List.length_append, hx] at this
    simp at this
    omega
  · rw [if_neg h38]
    have ht : (opsData o.script.ops ++ rest).take 6 = (opsData o.script.ops).take 6 := List.take_append_of_le_length (by omega)
    have hd : ((opsData o.script.ops ++ rest).drop 6).take 32 = ((opsData o.script.ops).drop 6).take 32 := by
      rw [List.drop_append_of_le_length (by omega), List.take_append_of_le_length (by simp; omega)]
    rw [ht, hd]
    by_cases hp : (opsData o.script.ops).take 6 = [0x6a, 0x24, 0xaa, 0x21, 0xa9, 0xed]
    · rw [if_pos (by rw [hp]; rfl)]
      symm
      rw [committed_iff _ _ hok hl]
      have hb : (Hash.of (((opsData o.script.ops).drop 6).take 32)).bytes = ((opsData o.script.ops).drop 6).take 32 :=
        fitBytes_of_length (by simp; omega)
      rw [hb]
      refine ⟨by simp; omega, (opsData o.script.ops).drop 38, ?_⟩
      conv_lhs => rw [← List.take_append_drop 6 (opsData o.script.ops), hp]
      rw [List.append_assoc]
      congr 1
      rw [show (opsData o.script.ops).drop 38 = ((opsData o.script.ops).drop 6).drop 32 by simp, List.take_append_drop]
    · rw [if_neg (by simpa using hp)]
      symm
      rw [commitment_none hok hl]
      rintro x ⟨hx, r, hr⟩
      apply hp
      rw [hr]
      simp

theorem commitment_loop : ∀ (os : List Output) (found : Option Hash), (∀ o ∈ os, Short o.script) →
    FwdU (TxView.commitmentLoop os.length found) (os.flatMap Output.toData) ((os.reverse.findSome? committedHash).or found) := by
  intro os
  induction os with
  | nil => intro found _; exact (FwdU.pure found).congr rfl (by simp)
  | cons o os ih =>
    intro found h
    have hi := h o (by simp)
    have hlen := (short_toData hi).2
    have hmb := maxBytes_val
    have hom := offMax_val
    have hle := hi.2
    have h1 : FwdU (doSkip 8) (writeU64 o.value) () := by
      have := (fwd_doSkip (writeU64 o.value) (by simp; decide)).U
      simpa using this
    have hmx : maxSize = 2 ^ 64 - 1 := rfl
    have h2 := (fwd_readSize maxSize o.script.size (by omega) (by omega)).U
    have h3 : FwdU (doSkip o.script.size) (opsData o.script.ops) () := by
      have := (fwd_doSkip (opsData o.script.ops) (by omega)).U
      rwa [hlen] at this
    have ih2 := ih ((committedHash o).or found) fun y hy => h y (by simp [hy])
    have h4 : FwdU (do
        let found ← (fun s : RS => (if TxView.commitmentPattern s.rest o.script.size then some (Hash.of ((s.rest.drop 6).take 32)) else found, s))
        doSkip o.script.size
        TxView.commitmentLoop os.length found) (opsData o.script.ops ++ os.flatMap Output.toData)
        ((os.reverse.findSome? committedHash).or ((committedHash o).or found)) := by
      intro s hs hg hu hp
      have key := (h3.bind (f := fun _ => TxView.commitmentLoop os.length ((committedHash o).or found)) ih2) s hs hg hu hp
      obtain ⟨rest, hr⟩ := hp
      rw [List.append_assoc] at hr
      have e := committed_eq hi (os.flatMap Output.toData ++ rest)
      rw [hr] at e
      have e2 : (if TxView.commitmentPattern s.rest o.script.size then some (Hash.of ((s.rest.drop 6).take 32)) else found) =
          (committedHash o).or found := by
        rw [← e]
        by_cases hc : TxView.commitmentPattern s.rest o.script.size = true
        · rw [if_pos hc, if_pos hc]; rfl
        · rw [if_neg hc, if_neg hc]; rfl
      show ((doSkip o.script.size >>= fun _ => TxView.commitmentLoop os.length (if TxView.commitmentPattern s.rest o.script.size then some (Hash.of ((s.rest.drop 6).take 32)) else found)) s).1 = _ ∧ _
      rw [e2]
      refine ⟨key.1, ?_⟩
      have k2 := key.2
      rw [← e2] at k2
      exact k2
    refine (h1.bind (h2.bind h4)).congr ?_ ?_
    · simp [Output.toData, (short_toData hi).1]
    · rw [List.reverse_cons, List.findSome?_append]
      cases os.reverse.findSome? committedHash <;> simp

theorem short_outputs_lt {t : Tx} {rest : Bytes} (hl : (t.toData true ++ rest).length < 2 ^ 63) : (outsData t).length < 2 ^ 63 := by
  have := full_length t
  simp only [List.length_append] at hl
  omega

theorem view_commitment {H : Bytes → Hash} {t : Tx} {rest : Bytes} (c w : Bool) (hv : Viewable t) (hl : (outsData t).length < 2 ^ 63)
    (ts : List Tx) : (rawView H (t.toData true ++ rest) t c w).witnessCommitment = Validate.witnessCommitment (t :: ts) := by
  have ha := agrees H t rest c w hv
  have ho : (rawView H (t.toData true ++ rest) t c w).outputsStream = outsData t := by
    rw [ha.outputsData, (seen_inputs w t).2.2.1]
  have hk := commitment_loop t.outputs none hv.shortOut (RS.init (outsData t)) (init_ok hl) rfl (init_unl hl) (List.prefix_refl _)
  unfold TxView.witnessCommitment
  rw [ho]
  refine Eq.trans hk.1 ?_
  unfold Validate.witnessCommitment
  simp

theorem view_reservation {H : Bytes → Hash} {t : Tx} {rest : Bytes} (c w : Bool) (hv : Viewable t) {i : Input} (hi : t.inputs = [i])
    (ts : List Tx) : (rawView H (t.toData true ++ rest) t c w).witnessReservation = Validate.witnessReservation (t :: ts) := by
  have hw : (rawView H (t.toData true ++ rest) t c w).witnessesStream = witsData t := by
    show ((t.toData true ++ rest).drop ((t.toData true).length - ((witsData t).length + 4))).take (witsData t).length = _
    rw [at_wits, take_of rfl rfl]
  have hz : (rawView H (t.toData true ++ rest) t c w).witnessesSize = (witsData t).length := rfl
  unfold TxView.witnessReservation Validate.witnessReservation
  rw [hw, hz]
  dsimp only
  rw [hi]
  dsimp only
  cases hs : t.segregated with
  | false =>
    have hno : segregatedInputs t.inputs = false := by rw [← hv.writable.segregated, hs]
    rw [hi] at hno
    have hst : i.witness.stack = [] := by simpa [segregatedInputs] using hno
    simp [witsData, hs, hst]
  | true =>
    have hwd : witsData t = i.witness.toData true := by simp [witsData, hs, hi]
    have hwr := hv.writable.witnesses hs i (by simp [hi])
    have hmb := maxBytes_val
    rw [hwd]
    match hst : i.witness.stack with
    | [e] =>
      have hd : i.witness.toData true = 1 :: (writeVariable e.length ++ e) := by
        simp [Witness.toData, hst, writeVariable]
      rw [hd]
      by_cases he : e.length = 32
      · have hv32 : writeVariable e.length = [32] := by rw [he]; rfl
        rw [if_neg (by rw [hv32]; simp [he]), hv32]
        simp only [List.cons_append, List.nil_append, List.take_succ_cons, List.take_zero, List.drop_succ_cons, List.drop_zero, if_true]
        rw [if_pos he, List.take_of_length_le (by omega)]
      · simp only [if_neg he]
        by_cases hsz : 34 > (1 :: (writeVariable e.length ++ e)).length
        · rw [if_pos hsz]
        · rw [if_neg hsz, if_neg]
          intro hh
          have hel := hwr.elements e (by simp [hst])
          unfold writeVariable at hh
          split at hh
          · simp only [List.cons_append, List.nil_append, List.take_succ_cons, List.take_zero, List.cons.injEq, and_true, true_and] at hh
            have := congrArg UInt8.toNat hh
            rw [UInt8.toNat_ofNat'] at this
            simp at this
            omega
          · split at hh
            · simp at hh
            · split at hh <;> simp at hh
    | [] =>
      have hd : i.witness.toData true = [0] := by simp [Witness.toData, hst, writeVariable_zero]
      rw [hd]; simp
    | e :: f :: l =>
      simp only
      by_cases hsz : 34 > (i.witness.toData true).length
      · rw [if_pos hsz]
      · rw [if_neg hsz, if_neg]
        intro hh
        have hcl := hwr.count
        have hd : i.witness.toData true = writeVariable (l.length + 2) ++ (e :: f :: l).flatMap fun e => writeVariable e.length ++ e := by
          simp [Witness.toData, hst]
        rw [hd] at hh
        rw [hst] at hcl
        simp only [List.length_cons] at hcl
        unfold writeVariable at hh
        split at hh
        · simp only [List.cons_append, List.nil_append, List.take_succ_cons, List.cons.injEq] at hh
          have := congrArg UInt8.toNat hh.1
          rw [UInt8.toNat_ofNat'] at this
          simp at this
          omega
        · split at hh
          · simp at hh
          · split at hh <;> simp at hh

/-- With witnesses, and a first transaction that is the only coinbase, `identify(ctx)` of the view decides the witness commitment
as `check(ctx)` of the block does. -/
theorem C60_commitment (H : Bytes → Hash) (b : Block) (hb : ViewableBlock b) (tail : Bytes)
    (hl : (b.toData true ++ tail).length < 2 ^ 63) (V : Validate.View)
    (hV : ∀ t, V.wtxid t = if t.segregated then (if isCoinbase t then nullHash else H (t.toData true)) else H (t.toData false))
    (hfirst : isFirstNonCoinbase b.txs = false) (hextra : isExtraCoinbases b.txs = false) (c : Ctx) :
    (BlockView.make H (b.toData true ++ tail) true).identifyCtx V.pair V.build c =
      if c.bip141 && Validate.isInvalidWitnessCommitment V b.txs then some .invalid_witness_commitment else none := by
  obtain ⟨hlen, hidx⟩ := views_index H true hb tail hl
  have hws : (BlockView.make H (b.toData true ++ tail) true).txs.map (fun t => t.hash true) = b.txs.map V.wtxid := by
    rw [map_views hlen (fun t => t.hash true) (fun _ t => V.wtxid t), zipIdx_const]
    intro i t ht
    obtain ⟨x, h1, _, h3⟩ := hidx i t ht
    refine ⟨x, h1, ?_⟩
    rw [h3.wtxid, hV]
    simp only [seen, if_true]
    cases hs : t.segregated with
    | false => rfl
    | true =>
      simp only [if_true]
      have : isCoinbase t = (i == 0) := by
        match hbt : b.txs with
        | [] => rw [hbt] at ht; cases ht
        | u :: us =>
          rw [hbt] at ht hfirst hextra
          cases i with
          | zero =>
            simp only [List.getElem?_cons_zero, Option.some.injEq] at ht
            subst ht
            simpa [isFirstNonCoinbase] using hfirst
          | succ i =>
            simp only [List.getElem?_cons_succ] at ht
            simp only [isExtraCoinbases, List.any_eq_false] at hextra
            simpa using hextra t (List.mem_of_getElem? ht)
      rw [this]
  have hseg : (BlockView.make H (b.toData true ++ tail) true).isSegregated = b.txs.any (fun t => t.segregated) := by
    rw [(C60_block H true b hb tail hl).2.2.2.2]
    unfold seenBlock
    rw [List.any_map]; rfl
  unfold BlockView.identifyCtx
  have : (BlockView.make H (b.toData true ++ tail) true).isInvalidWitnessCommitment V.pair V.build =
      Validate.isInvalidWitnessCommitment V b.txs := by
    unfold BlockView.isInvalidWitnessCommitment Validate.isInvalidWitnessCommitment
    match hbt : b.txs with
    | [] => exact absurd hbt hb.some
    | t :: ts =>
      have ht : t ∈ b.txs := by simp [hbt]
      obtain ⟨x, hx, ⟨rest, hraw⟩, _⟩ := hidx 0 t (by rw [hbt]; rfl)
      match hvt : (BlockView.make H (b.toData true ++ tail) true).txs with
      | [] => rw [hvt] at hx; cases hx
      | y :: ys =>
        rw [hvt] at hx
        simp only [List.getElem?_cons_zero, Option.some.injEq] at hx
        subst hx
        have hin : ∃ i, t.inputs = [i] := by
          rw [hbt] at hfirst
          simp only [isFirstNonCoinbase, Bool.not_eq_false'] at hfirst
          unfold isCoinbase at hfirst
          split at hfirst
          · rename_i i hi; exact ⟨i, hi⟩
          · cases hfirst
        obtain ⟨i, hi⟩ := hin
        have hol : (outsData t).length < 2 ^ 63 := by
          have h1 : (t.toData true).length ≤ (b.toData true ++ tail).length := by
            obtain ⟨p, q, hpq⟩ := List.append_of_mem ht
            rw [block_split]
            simp only [List.length_append, hpq, List.flatMap_append, List.flatMap_cons]
            omega
          have := full_length t
          omega
        have ec : y.witnessCommitment = Validate.witnessCommitment (t :: ts) := by
          rw [hraw]; exact view_commitment _ _ (hb.txs t ht) hol ts
        have er : y.witnessReservation = Validate.witnessReservation (t :: ts) := by
          rw [hraw]; exact view_reservation _ _ (hb.txs t ht) hi ts
        have em : (BlockView.make H (b.toData true ++ tail) true).merkleRootOf V.pair V.build true =
            Validate.merkleRootOf V (t :: ts) true := by
          unfold BlockView.merkleRootOf Validate.merkleRootOf
          rw [hws, hbt]; simp
        simp only [List.isEmpty_cons, Bool.false_eq_true, if_false]
        rw [ec, er, em, hseg, hbt]
        cases Validate.witnessCommitment (t :: ts) with
        | none => rfl
        | some _ => cases Validate.witnessReservation (t :: ts) <;> rfl
  rw [this]

/-! ### streamers -/

theorem write_elements : ∀ (es : List Bytes), (∀ e ∈ es, e.length ≤ maxBytes) →
    FwdU (writeElements es.length) (es.flatMap encElement) (es.flatMap encElement) ∧
    FwdU (sizeElements es.length) (es.flatMap encElement) (es.flatMap encElement).length := by
  intro es
  have hmb := maxBytes_val
  have hom := offMax_val
  have hmx : maxSize = 2 ^ 64 - 1 := rfl
  induction es with
  | nil => intro _; exact ⟨FwdU.pure _, FwdU.pure _⟩
  | cons e es ih =>
    intro h
    have he := h e (by simp)
    obtain ⟨i1, i2⟩ := ih fun x hx => h x (by simp [hx])
    have h1 := (fwd_readSize maxSize e.length (by omega) (by omega)).U
    refine ⟨?_, ?_⟩
    · refine (h1.bind ((fwd_readBytes e).U.bind (i1.map _))).congr ?_ ?_
      · simp [encElement]
      · simp [encElement]
    · refine (h1.bind ((fwd_doSkip e (by omega)).U.bind (i2.map _))).congr ?_ ?_
      · simp [encElement]
      · simp [encElement, writeVariable_length]
        try omega

/-- The store writers copy the script (with its size) of the input at the reader's position, skipping the point, and the witness
at the reader's position, and measure the latter. -/
theorem C60_streamers (i : Input) (hi : i.script.Writable) (hs : (opsData i.script.ops).length ≤ maxBytes) (hw : i.witness.Writable) (rest : Bytes)
    (hl : (i.point.toData ++ i.script.toData true ++ rest).length < 2 ^ 63) (hl2 : (i.witness.toData true ++ rest).length < 2 ^ 63) :
    let a := writeInputScript (RS.init (i.point.toData ++ i.script.toData true ++ rest))
    let b := writeWitness (RS.init (i.witness.toData true ++ rest))
    let c := readWitnessSize (RS.init (i.witness.toData true ++ rest))
    a.1 = i.script.toData true ∧ a.2.rest = rest ∧ a.2.good = true ∧
    b.1 = i.witness.toData true ∧ b.2.rest = rest ∧ b.2.good = true ∧
    c.1 = (i.witness.toData true).length ∧ c.2.rest = rest ∧ c.2.good = true := by
  intro a b c
  have hmb := maxBytes_val
  have hom := offMax_val
  have hmx : maxSize = 2 ^ 64 - 1 := rfl
  have hsize : i.script.size = (opsData i.script.ops).length := hi.size
  have h1 : FwdU (doSkip 36) i.point.toData () := by
    have := (fwd_doSkip i.point.toData (by rw [← Point.size_ok]; decide)).U
    rwa [← Point.size_ok] at this
  have h2 := (fwd_readSize maxSize i.script.size (by omega) (by omega)).U
  have h3 := (fwd_readBytes (opsData i.script.ops)).U
  rw [← hsize] at h3
  have ha : FwdU writeInputScript (i.point.toData ++ i.script.toData true) (i.script.toData true) := by
    refine (h1.bind (h2.bind (h3.map _))).congr ?_ rfl
    rfl
  have hc := hw.count
  have h4 := (fwd_readSize maxSize i.witness.stack.length (by omega) (by omega)).U
  obtain ⟨h5, h6⟩ := write_elements i.witness.stack hw.elements
  have hb : FwdU writeWitness (i.witness.toData true) (i.witness.toData true) := (h4.bind (h5.map _)).congr rfl rfl
  have hcc : FwdU readWitnessSize (i.witness.toData true) (i.witness.toData true).length := by
    refine (h4.bind (h6.map _)).congr rfl ?_
    simp only [Witness.toData, if_true, List.length_append, writeVariable_length]
    rfl
  obtain ⟨a1, a2⟩ := ha (RS.init (i.point.toData ++ i.script.toData true ++ rest)) (init_ok hl) rfl (init_unl hl)
    (by rw [init_rest]; exact List.prefix_append _ _)
  obtain ⟨b1, b2⟩ := hb (RS.init (i.witness.toData true ++ rest)) (init_ok hl2) rfl (init_unl hl2)
    (by rw [init_rest]; exact List.prefix_append _ _)
  obtain ⟨c1, c2⟩ := hcc (RS.init (i.witness.toData true ++ rest)) (init_ok hl2) rfl (init_unl hl2)
    (by rw [init_rest]; exact List.prefix_append _ _)
  refine ⟨a1, ?_, a2.good, b1, ?_, b2.good, c1, ?_, c2.good⟩
  · rw [a2.rest, init_rest, List.drop_left]
  · rw [b2.rest, init_rest, List.drop_left]
  · rw [c2.rest, init_rest, List.drop_left]

/-- The hypotheses are met: two segregated transactions. -/
theorem exampleTx_viewable : Viewable exampleTx :=
  ⟨exampleTx_writable, by decide, by decide, by decide, by decide, by decide⟩
theorem exampleBlock_viewable : ViewableBlock exampleBlock := by
  refine ⟨by decide, by decide, fun t ht => ?_⟩
  simp only [exampleBlock, List.mem_cons, List.not_mem_nil, or_false, or_self] at ht
  subst ht
  exact exampleTx_viewable

/-- A stand-in for the hash function, used in the examples only. -/
def toyHash (d : Bytes) : Hash := Hash.of ((d.reverse ++ List.replicate 32 0).take 32)

example : (BlockView.make toyHash (exampleBlock.toData true) true).isValid = true ∧
    (BlockView.make toyHash (exampleBlock.toData true) true).isSegregated = true ∧
    (BlockView.make toyHash (exampleBlock.toData true) true).toData false = exampleBlock.toData false ∧
    (BlockView.make toyHash (exampleBlock.toData true) true).toData false ≠ exampleBlock.toData true := by decide +kernel

/-- With witnesses the view returns its whole buffer: trailing bytes are included, and so are the witnesses of a view constructed
without them, although its transactions drop them. -/
theorem C60_whole_buffer_counterexample :
    (BlockView.make toyHash (exampleBlock.toData true ++ [7]) true).isValid = true ∧
    (BlockView.make toyHash (exampleBlock.toData true ++ [7]) true).toData true = exampleBlock.toData true ++ [7] ∧
    (BlockView.make toyHash (exampleBlock.toData true) false).toData true ≠ (seenBlock false exampleBlock).toData true ∧
    (BlockView.make toyHash (exampleBlock.toData true) false).txs.map (fun t => t.toData true) =
      (seenBlock false exampleBlock).txs.map (fun t => t.toData true) := by decide +kernel

/-- The first transaction has a null witness hash in the view whether or not it is a coinbase, so the hypothesis on coinbases of
`C60_commitment` is needed. -/
theorem C60_position_counterexample : isCoinbase exampleTx = false ∧
    (BlockView.make toyHash (exampleBlock.toData true) true).txs.map (fun t => t.hash true) =
      [nullHash, toyHash (exampleTx.toData true)] := by decide +kernel

end Verif.Views
