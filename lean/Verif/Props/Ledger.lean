import Verif.Spec.Ledger
import Verif.Props.Validate
/-!
# C18: accepted blocks cannot inflate the currency
-/
namespace Verif.Validate
open Verif Spec

theorem satSum_eq (l : List Nat) : satSum l = min l.sum maxSize := by
  have : ∀ (l : List Nat) (a : Nat), l.foldl cadd (min a maxSize) = min (a + l.sum) maxSize := by
    intro l
    induction l with
    | nil => intro a; simp
    | cons x xs ih =>
      intro a
      have e : cadd (min a maxSize) x = min (a + x) maxSize := by unfold cadd; omega
      rw [List.foldl_cons, e, ih, List.sum_cons, Nat.add_assoc]
  have h := this l 0
  rw [Nat.zero_min, Nat.zero_add] at h
  exact h

/-- What the code computes for one transaction, in unbounded arithmetic. -/
def inValues (v : View) (t : Tx) : List Nat :=
  t.inputs.map fun i => match v.prevout (keyOf i.point) with | some o => o.value.toNat | none => 0
def outValues (t : Tx) : List Nat := t.outputs.map fun o => o.value.toNat

/-- One transaction: when its inputs total less than the largest 64 bit number, acceptance means that its outputs total at
most its inputs, and the fee is the exact difference. -/
theorem C18_transaction (v : View) (t : Tx) (hc : isCoinbase t = false) (hv : (inValues v t).sum < 2 ^ 64 - 1)
    (ha : txAccept v t = none) :
    (∀ i ∈ t.inputs, (v.prevout (keyOf i.point)).isSome) ∧ (outValues t).sum ≤ (inValues v t).sum ∧
      txFee v t = (inValues v t).sum - (outValues t).sum := by
  unfold txAccept at ha
  rw [hc] at ha
  simp only [Bool.false_eq_true, if_false] at ha
  have hmax : maxSize = 2 ^ 64 - 1 := rfl
  have h1 : txValue v t = min (inValues v t).sum maxSize := satSum_eq _
  have h2 : txSpend t = min (outValues t).sum maxSize := satSum_eq _
  split at ha
  · simp at ha
  · rename_i hm
    split at ha
    · simp at ha
    · rename_i ho
      refine ⟨?_, by omega, by unfold txFee; omega⟩
      intro i hi
      unfold isMissingPrevouts at hm
      simp only [List.any_eq_true, not_exists, not_and] at hm
      have := hm i hi
      cases hp : v.prevout (keyOf i.point) with
      | none => simp [hp] at this
      | some o => rfl

theorem total_append (a b : Ledger) : total (a ++ b) = total a + total b := by simp [total]

theorem total_filter_le (p : Key × Output → Bool) (u : Ledger) : total (u.filter p) ≤ total u := by
  induction u with
  | nil => simp [total]
  | cons e u ih =>
    rw [List.filter_cons]
    split <;> simp only [total, List.map_cons, List.sum_cons] at * <;> omega

theorem total_filter_imp (p q : Key × Output → Bool) (u : Ledger) (h : ∀ e, p e = true → q e = true) :
    total (u.filter p) ≤ total (u.filter q) := by
  have : u.filter p = (u.filter q).filter p := by
    rw [List.filter_filter]
    congr 1
    funext e
    cases hp : p e
    · simp
    · simp [h e hp]
  rw [this]
  exact total_filter_le _ _

/-- Removing distinct keys, each of which is present, removes at least their values. -/
theorem total_remove (f : Key → Nat) : ∀ (ks : List Key) (u : Ledger), ks.Nodup →
    (∀ k ∈ ks, ∃ o, (k, o) ∈ u ∧ o.value.toNat = f k) →
    total (u.filter fun e => decide (e.1 ∉ ks)) + (ks.map f).sum ≤ total u := by
  intro ks
  induction ks with
  | nil => intro u _ _; simp
  | cons k ks ih =>
    intro u hn hm
    obtain ⟨hk, hn⟩ := List.nodup_cons.1 hn
    have h1 := ih (u.filter fun e => decide (e.1 ≠ k)) hn (by
      intro x hx
      obtain ⟨o, h1, h2⟩ := hm x (List.mem_cons_of_mem _ hx)
      refine ⟨o, List.mem_filter.2 ⟨h1, ?_⟩, h2⟩
      simp only [ne_eq, decide_not, Bool.not_eq_eq_eq_not, Bool.not_true, decide_eq_false_iff_not]
      rintro rfl; exact hk hx)
    have h2 : total (u.filter fun e => decide (e.1 ≠ k)) + f k ≤ total u := by
      obtain ⟨o, ho, hv⟩ := hm k (by simp)
      clear h1 hm ih
      induction u with
      | nil => simp at ho
      | cons e u ih =>
        rw [List.filter_cons]
        rcases List.mem_cons.1 ho with rfl | ho
        · rw [if_neg (by simp)]
          have := total_filter_le (fun e => decide (e.1 ≠ k)) u
          simp only [total, List.map_cons, List.sum_cons] at *
          omega
        · have := ih ho
          split <;> simp only [total, List.map_cons, List.sum_cons] at * <;> omega
    rw [List.filter_filter] at h1
    have e : (fun e : Key × Output => decide (e.1 ∉ k :: ks)) = fun e => decide (e.1 ∉ ks) && decide (e.1 ≠ k) := by
      funext e
      simp only [List.mem_cons, not_or, ne_eq]
      by_cases h1 : e.1 = k <;> by_cases h2 : e.1 ∈ ks <;> simp [h1, h2]
    rw [e, List.map_cons, List.sum_cons]
    omega

/-- A block that passes the library's checks on top of a ledger. `txid` collisions that no one can produce are excluded: a
transaction does not spend its own output, and no transaction has the null hash. -/
structure Extends (v : View) (c : Ctx) (interval initial : Nat) (identity : Bool) (u : Ledger) (b : Block) : Prop where
  check : blockCheck v b identity = none
  populate : populateError v c b.txs = none
  accept : blockAccept { v with prevout := populated v b.txs (find u) } c interval initial b = none
  notSelf : ∀ t ∈ b.txs, ∀ i ∈ t.inputs, i.point.hash ≠ v.txid t
  notNull : ∀ t ∈ b.txs, v.txid t ≠ nullHash

/-- No unspent output has the null hash. -/
def NoNull (u : Ledger) : Prop := ∀ e ∈ u, e.1.1 ≠ nullHash

theorem find_some {l : Ledger} {k : Key} {o : Output} (h : find l k = some o) : (k, o) ∈ l := by
  unfold find at h
  rw [Option.map_eq_some_iff] at h
  obtain ⟨e, h1, h2⟩ := h
  have := List.find?_some h1
  simp only [decide_eq_true_eq] at this
  have hm := List.mem_of_find?_eq_some h1
  rw [← this, ← h2]
  exact hm

theorem mem_created {txid : Tx → Hash} {txs : List Tx} {e : Key × Output} (h : e ∈ created txid txs) :
    ∃ t ∈ txs, e ∈ created txid [t] ∧ e.1.1 = txid t := by
  unfold created at h
  rw [List.mem_flatMap] at h
  obtain ⟨t, ht, he⟩ := h
  refine ⟨t, ht, by simpa [created] using he, ?_⟩
  rw [List.mem_map] at he
  obtain ⟨p, _, rfl⟩ := he
  rfl

theorem created_subset {txid : Tx → Hash} {txs : List Tx} {t : Tx} (ht : t ∈ txs) {e : Key × Output} (h : e ∈ created txid [t]) :
    e ∈ created txid txs := by
  unfold created at *
  rw [List.mem_flatMap]
  exact ⟨t, ht, by simpa using h⟩

theorem total_created (txid : Tx → Hash) (t : Tx) : total (created txid [t]) = (outValues t).sum := by
  have : created txid [t] = t.outputs.zipIdx.map fun p => ((txid t, UInt32.ofNat p.2), p.1) := by simp [created]
  rw [this, total, outValues, List.map_map]
  congr 1
  generalize 0 = n
  induction t.outputs generalizing n with
  | nil => rfl
  | cons o os ih => simp only [List.zipIdx_cons, List.map_cons, Function.comp_apply, ih]

/-- A block moves value but creates at most the subsidy. -/
theorem C18_block (v : View) (c : Ctx) (interval initial : Nat) (identity : Bool) (u : Ledger) (b : Block) (hn : NoNull u)
    (ht : total u + subsidy c.height interval initial c.bip42 < 2 ^ 64 - 1)
    (h : Extends v c interval initial identity u b) :
    total (applyBlock v.txid u b) ≤ total u + subsidy c.height interval initial c.bip42 ∧ NoNull (applyBlock v.txid u b) := by
  have hmax : maxSize = 2 ^ 64 - 1 := rfl
  have hnn : NoNull (applyBlock v.txid u b) := by
    intro e he
    rw [applyBlock, List.mem_filter, List.mem_append] at he
    rcases he.1 with he | he
    · exact hn e he
    · obtain ⟨t, ht, _, e1⟩ := mem_created he
      rw [e1]; exact h.notNull t ht
  refine ⟨?_, hnn⟩
  -- facts from check
  have hck := h.check
  unfold blockCheck at hck
  cases hb : b.txs with
  | nil => simp [hb] at hck
  | cons t0 ts =>
    rw [hb] at hck
    simp only [List.isEmpty_cons, Bool.false_eq_true, if_false] at hck
    split at hck
    · simp at hck
    split at hck
    · simp at hck
    rename_i hfirst
    split at hck
    · simp at hck
    rename_i hextra
    split at hck
    · simp at hck
    rename_i hfwd
    split at hck
    · simp at hck
    rename_i hdbl
    clear hck
    rw [forward_iff] at hfwd
    rw [Bool.not_eq_true, doubleSpend_iff] at hdbl
    simp only [spentKeys, List.tail_cons] at hdbl
    have hcb : ∀ t ∈ ts, isCoinbase t = false := by
      intro t ht
      simp only [isExtraCoinbases, List.any_eq_true, not_exists, not_and] at hextra
      simpa using hextra t ht
    -- facts from accept
    generalize hw : ({ v with prevout := populated v b.txs (find u) } : View) = w at *
    have hacc := h.accept
    rw [hw] at hacc
    unfold blockAccept at hacc
    split at hacc
    · simp at hacc
    rename_i hclaim
    split at hacc
    · simp at hacc
    rw [hb, List.drop_succ_cons, List.drop_zero, firstError_none] at hacc
    -- facts from populate
    have hpop := h.populate
    rw [hb] at hpop
    simp only [populateError, firstError_none] at hpop
    have hkey : ∀ t : Tx, (t.inputs.map fun i => (i.point.hash, i.point.index)) = t.inputs.map fun i => keyOf i.point := fun _ => rfl
    have hprev : w.prevout = populated v (t0 :: ts) (find u) := by rw [← hw, hb]
    -- the invariant
    have inv : ∀ done : List Tx, done <+: ts →
        total ((u ++ created v.txid done).filter fun e => decide (e.1 ∉ done.flatMap fun t => t.inputs.map fun i => keyOf i.point))
          + (done.map (txFee w)).sum ≤ total u := by
      intro done
      induction done using List.reverseRecOn with
      | nil => intro _; simp [created]
      | append_singleton done t ih =>
        intro hp
        have hp' : done <+: ts := (List.prefix_append done [t]).trans hp
        have ih := ih hp'
        obtain ⟨rest, hrest⟩ := hp
        have htm : t ∈ ts := by rw [← hrest]; simp
        generalize hS : done.flatMap (fun t => t.inputs.map fun i => keyOf i.point) = S at ih
        generalize hA : (u ++ created v.txid done).filter (fun e => decide (e.1 ∉ S)) = A at ih
        -- the inputs of t are available
        have hnd : (t.inputs.map fun i => keyOf i.point).Nodup ∧ ∀ k ∈ S, k ∉ t.inputs.map fun i => keyOf i.point := by
          rw [← hrest] at hdbl
          simp only [List.flatMap_append, List.append_assoc, List.flatMap_cons, List.flatMap_nil, List.append_nil, hkey] at hdbl
          obtain ⟨_, h2, h3⟩ := List.nodup_append.1 hdbl
          obtain ⟨h4, _, _⟩ := List.nodup_append.1 h2
          refine ⟨h4, ?_⟩
          intro k hk hk'
          rw [← hS] at hk
          exact h3 k hk k (by simp [hk']) rfl
        have havail : ∀ i ∈ t.inputs, ∀ o, w.prevout (keyOf i.point) = some o → (keyOf i.point, o) ∈ A := by
          intro i hi o ho
          rw [← hA, List.mem_filter]
          constructor
          · rw [List.mem_append]
            rw [hprev] at ho
            unfold populated at ho
            cases hf : find (blockOutputs v (t0 :: ts)) (keyOf i.point) with
            | none =>
              rw [hf] at ho
              exact .inl (find_some ho)
            | some o' =>
              rw [hf] at ho
              injection ho with ho
              subst ho
              have hp1 := hpop t htm i hi
              rw [hf] at hp1
              simp only at hp1
              have hne0 : i.point.hash ≠ v.txid t0 := by
                intro he; rw [if_pos he] at hp1; simp at hp1
              obtain ⟨t', ht', hc', he'⟩ := mem_created (txid := v.txid) (find_some hf)
              right
              have : t' ∈ done := by
                rcases List.mem_cons.1 ht' with rfl | ht'
                · exact absurd he' hne0
                · rw [← hrest, List.append_assoc, List.mem_append] at ht'
                  rcases ht' with h' | h'
                  · exact h'
                  · exfalso
                    rcases List.mem_cons.1 h' with rfl | h'
                    · exact h.notSelf t' (by rw [hb]; exact List.mem_cons_of_mem _ htm) i hi he'
                    · apply hfwd
                      obtain ⟨m, hm⟩ := List.mem_iff_getElem?.1 (by simpa using h' : t' ∈ rest)
                      refine ⟨1 + done.length, 1 + done.length + 1 + m, t, t', by omega, by omega, ?_, ?_, i, hi, he'⟩
                      · rw [← hrest, Nat.add_comm 1, List.getElem?_cons_succ, List.append_assoc, List.getElem?_append_right (by omega), Nat.sub_self]
                        rfl
                      · have e1 : 1 + done.length + 1 + m = done.length + 1 + m + 1 := by omega
                        rw [← hrest, e1, List.getElem?_cons_succ, List.getElem?_append_right (by simp)]
                        have e2 : done.length + 1 + m - (done ++ [t]).length = m := by simp
                        rw [e2]; exact hm
              exact created_subset this hc'
          · simp only [decide_eq_true_eq]
            intro hk
            exact hnd.2 _ hk (List.mem_map.2 ⟨i, hi, rfl⟩)
        -- acceptance of t
        have htA := hacc t htm
        have hcbt := hcb t htm
        let f : Key → Nat := fun k => match w.prevout k with | some o => o.value.toNat | none => 0
        have hmiss : ∀ i ∈ t.inputs, (w.prevout (keyOf i.point)).isSome := by
          unfold txAccept at htA
          rw [hcbt] at htA
          simp only [Bool.false_eq_true, if_false] at htA
          split at htA
          · simp at htA
          · rename_i hm
            intro i hi
            simp only [isMissingPrevouts, List.any_eq_true, not_exists, not_and] at hm
            have := hm i hi
            cases hp : w.prevout (keyOf i.point) with
            | none => simp [hp] at this
            | some o => rfl
        have hrem := total_remove f (t.inputs.map fun i => keyOf i.point) A hnd.1 (by
          intro k hk
          obtain ⟨i, hi, rfl⟩ := List.mem_map.1 hk
          obtain ⟨o, ho⟩ := Option.isSome_iff_exists.1 (hmiss i hi)
          exact ⟨o, havail i hi o ho, by simp only [f, ho]⟩)
        have hfv : ((t.inputs.map fun i => keyOf i.point).map f).sum = (inValues w t).sum := by
          rw [inValues, List.map_map]; rfl
        rw [hfv] at hrem
        have hA_le : total A ≤ total u := by omega
        obtain ⟨_, hle, hfee⟩ := C18_transaction w t hcbt (by omega) htA
        -- the ledger after t
        have hstep : total ((u ++ created v.txid (done ++ [t])).filter fun e => decide (e.1 ∉ (done ++ [t]).flatMap fun t => t.inputs.map fun i => keyOf i.point))
            ≤ total (A.filter fun e => decide (e.1 ∉ t.inputs.map fun i => keyOf i.point)) + total (created v.txid [t]) := by
          have e1 : created v.txid (done ++ [t]) = created v.txid done ++ created v.txid [t] := by simp [created]
          rw [e1, ← List.append_assoc, List.filter_append, total_append]
          refine Nat.add_le_add ?_ (total_filter_le _ _)
          rw [← hA, List.filter_filter]
          apply total_filter_imp
          intro e he
          simp only [List.flatMap_append, List.mem_append, not_or, decide_eq_true_eq] at he
          rw [hS] at he
          have h2 := he.2
          simp only [List.flatMap_cons, List.flatMap_nil, List.append_nil] at h2
          rw [Bool.and_eq_true, decide_eq_true_eq, decide_eq_true_eq]
          exact ⟨h2, he.1⟩
        rw [total_created] at hstep
        rw [List.map_append, List.sum_append]
        simp only [List.map_cons, List.map_nil, List.sum_cons, List.sum_nil, Nat.add_zero]
        omega
    have hfin := inv ts (List.prefix_refl _)
    -- the coinbase claim
    have hfee0 : txFee w t0 = 0 := by
      have : isCoinbase t0 = true := by simpa [isFirstNonCoinbase] using hfirst
      rw [coinbase_iff] at this
      obtain ⟨i, hi, hnull⟩ := this
      have hnone : w.prevout (keyOf i.point) = none := by
        rw [hprev]
        unfold populated
        have hk : (keyOf i.point).1 = nullHash := hnull.1
        cases hf : find (blockOutputs v (t0 :: ts)) (keyOf i.point) with
        | some o =>
          exfalso
          obtain ⟨t', ht', _, he'⟩ := mem_created (txid := v.txid) (find_some hf)
          exact h.notNull t' (by rw [hb]; exact ht') (by rw [← he', hk])
        | none =>
          simp only
          cases hu : find u (keyOf i.point) with
          | none => rfl
          | some o => exact absurd hk (hn _ (find_some hu))
      unfold txFee txValue
      rw [hi]
      simp [hnone, satSum, cadd]
    have hfees : blockFees w (t0 :: ts) = min ((ts.map (txFee w)).sum) maxSize := by
      unfold blockFees
      rw [satSum_eq, List.map_cons, List.sum_cons, hfee0, Nat.zero_add]
    rw [hb] at hclaim
    unfold blockReward at hclaim
    rw [hfees] at hclaim
    have hspend : txSpend t0 = min (outValues t0).sum maxSize := satSum_eq _
    simp only [blockClaim, hspend] at hclaim
    have hout : (outValues t0).sum ≤ (ts.map (txFee w)).sum + subsidy c.height interval initial c.bip42 := by
      unfold cadd at hclaim
      omega
    have happ : total (applyBlock v.txid u b) ≤ total ((u ++ created v.txid ts).filter fun e => decide (e.1 ∉ ts.flatMap fun t => t.inputs.map fun i => keyOf i.point))
        + total (created v.txid [t0]) := by
      unfold applyBlock
      rw [hb]
      have e1 : created v.txid (t0 :: ts) = created v.txid [t0] ++ created v.txid ts := by simp [created]
      rw [e1]
      simp only [List.filter_append, total_append, spentKeys, List.tail_cons, hkey]
      have := total_filter_le (fun e => decide (e.1 ∉ ts.flatMap fun t => t.inputs.map fun i => keyOf i.point)) (created v.txid [t0])
      omega
    rw [total_created] at happ
    omega

/-- Ledgers reachable from the empty one by blocks that pass the checks, at consecutive heights. -/
inductive Reachable (interval initial : Nat) : Nat → Ledger → Prop
  | genesis : Reachable interval initial 0 []
  | block (n : Nat) (u : Ledger) (v : View) (c : Ctx) (identity : Bool) (b : Block) : Reachable interval initial n u →
      c.height = n → c.bip42 = true → Extends v c interval initial identity u b →
      Reachable interval initial (n + 1) (applyBlock v.txid u b)

/-- No chain of accepted blocks holds more than the sum of the subsidies of its heights. -/
theorem C18_supply (interval initial : Nat) (hi : 0 < interval) (hs : 2 * interval * initial < 2 ^ 64 - 1) (n : Nat) (u : Ledger)
    (h : Reachable interval initial n u) : total u ≤ ∑ k ∈ Finset.range n, subsidy k interval initial true := by
  have h64 : initial < 2 ^ 64 := by
    have : initial ≤ 2 * interval * initial := Nat.le_mul_of_pos_left _ (by omega)
    omega
  suffices total u ≤ ∑ k ∈ Finset.range n, subsidy k interval initial true ∧ NoNull u from this.1
  induction h with
  | genesis => exact ⟨by simp [total], by intro e he; simp at he⟩
  | block n u v c identity b _ hc hb he ih =>
    have hbound := C17_total interval initial hi h64 (n + 1)
    rw [Finset.sum_range_succ] at hbound ⊢
    obtain ⟨h1, h2⟩ := C18_block v c interval initial identity u b ih.2 (by rw [hc, hb]; omega) he
    rw [hc, hb] at h1
    exact ⟨by omega, h2⟩

/-- With mainnet settings, never more than 20999999.9769 coins. -/
theorem C18_mainnet (n : Nat) (u : Ledger) (h : Reachable 210000 5000000000 n u) : total u ≤ 2099999997690000 :=
  le_trans (C18_supply 210000 5000000000 (by norm_num) (by norm_num) n u h) (C17_mainnet n).1

/-! Non-vacuity: a block with a coinbase and a transaction that leaves a fee of three extends a ledger. -/
def toyLedger : Ledger := [((toyHash 7, 0), ⟨13, Script.ofOps [], true⟩), ((toyHash 7, 1), ⟨20, Script.ofOps [], true⟩)]
def toyCtx : Ctx := { height := 0, timestamp := 0, mtp := 0, bip42 := true }

example : Extends toyView toyCtx 210000 5000000000 true toyLedger (toyBlock [toyCoinbase, toySpend]) ∧ NoNull toyLedger ∧
    total toyLedger = 33 ∧ total (applyBlock toyView.txid toyLedger (toyBlock [toyCoinbase, toySpend])) = 5000000033 := by
  refine ⟨⟨by decide +kernel, by decide +kernel, by decide +kernel, by decide +kernel, by decide +kernel⟩, by unfold NoNull; decide +kernel, by decide +kernel, by decide +kernel⟩

example : Reachable 210000 5000000000 1 (applyBlock toyView.txid [] (toyBlock [toyTx 1 [{ hash := nullHash, index := 0xffffffff }] [5000000000]])) :=
  .block 0 [] toyView toyCtx false _ .genesis rfl rfl
    ⟨by decide +kernel, by decide +kernel, by decide +kernel, by decide +kernel, by decide +kernel⟩

/-- Claiming one more than the reward is refused. -/
example : ¬ Extends toyView toyCtx 210000 5000000000 true [] (toyBlock [toyTx 1 [{ hash := nullHash, index := 0xffffffff }] [5000000001]]) := by
  intro h
  exact absurd h.accept (by decide +kernel)

end Verif.Validate
