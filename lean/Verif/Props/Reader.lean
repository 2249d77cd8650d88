import Verif.Lemmas.StreamSafe
/-!
# Properties C03 (buffer bounds, sticky failure), C46 (limits), C47 (lines)

A client is any sequence of calls on one byte reader. Adaptive clients are covered: whatever a client
decides from earlier results, the calls it makes form one of the sequences quantified over.
-/
namespace Verif

/-- The calls a client can make on a byte reader. -/
inductive Call where
  | readByte | peek | readVariable | readSize (limit : Nat) | readLE (n : Nat) | readBE (n : Nat)
  | readBytes (n : Nat) | readAll | skip (n : Nat) | skipVariable | rewind (n : Nat)
  | setPosition (a : Nat) | setLimit (n : Nat) | invalidate
  | readString (limit : Nat) | readStringBuffer (n : Nat) | readLine (terminator : Bytes)

/-- Effect of a call on the reader. -/
def Call.run : Call → RS → RS
  | .readByte, s => (Verif.readByte s).2
  | .peek, s => (peekByte s).2
  | .readVariable, s => (Verif.readVariable s).2
  | .readSize l, s => (Verif.readSize l s).2
  | .readLE n, s => (Verif.readLE n s).2
  | .readBE n, s => (Verif.readBE n s).2
  | .readBytes n, s => (Verif.readBytes n s).2
  | .readAll, s => (Verif.readAll s).2
  | .skip n, s => (skipBytes n s).2
  | .skipVariable, s => (Verif.skipVariable s).2
  | .rewind n, s => (doRewind n s).2
  | .setPosition a, s => (Verif.setPosition a s).2
  | .setLimit n, s => (Verif.setLimit n s).2
  | .invalidate, s => (Verif.invalidate s).2
  | .readString l, s => (Verif.readString l s).2
  | .readStringBuffer n, s => (Verif.readStringBuffer n s).2
  | .readLine t, s => (Verif.readLine t s).2

/-- Explicit sizes are below `2^63` (the signed stream offset range, the contract of the reader). -/
def Call.InContract : Call → Prop
  | .readLE n | .readBE n | .readBytes n | .skip n | .rewind n | .setPosition n => n < 2 ^ 63
  | .readLine t => t.length < 2 ^ 62
  | _ => True

/-- Calls documented to clear a failed state. -/
def Call.Clears : Call → Prop
  | .setPosition _ | .readString _ | .readStringBuffer _ => True
  | _ => False

/-- Calls that set a new limit. -/
def Call.SetsLimit : Call → Prop
  | .setLimit _ => True
  | _ => False


/-- State after a sequence of calls. -/
def runCalls (cs : List Call) (s : RS) : RS := cs.foldl (fun s c => c.run s) s

theorem Call.safe (c : Call) (hc : c.InContract) (s : RS) (hs : s.OK) :
    (c.run s).OK ∧ (c.run s).data = s.data ∧ (c.run s).ub = s.ub := by
  have use : ∀ {α} {p : Reader α}, Safe p → (p s).2.OK ∧ (p s).2.data = s.data ∧ (p s).2.ub = s.ub :=
    fun h => ⟨h.ok s hs, h.data s hs, h.ub s hs⟩
  cases c with
  | readByte => exact use tame_readByte.safe
  | peek => exact use tame_peekByte.safe
  | readVariable => exact use tame_readVariable.safe
  | readSize l => exact use (tame_readSize l).safe
  | readLE n => exact use (tame_readLE (n := n) hc).safe
  | readBE n => exact use (tame_readBE (n := n) hc).safe
  | readBytes n => exact use (tame_readBytes (n := n) hc).safe
  | readAll => exact use tame_readAll.safe
  | skip n => exact use (tame_doSkip (n := n) hc).safe
  | skipVariable => exact use tame_skipVariable.safe
  | rewind n => exact use (tame_doRewind (n := n) hc).safe
  | setPosition n => exact use (safe_setPosition (a := n) hc)
  | setLimit n => exact use (tame_setLimit n).safe
  | invalidate => exact use tame_invalidate.safe
  | readString l => exact use (readString_safe l).1
  | readStringBuffer n => exact use (readStringBuffer_safe n).1
  | readLine t => exact use (readLine_safe t).1.safe

/-- C03: after any sequence of calls the position is inside the (unchanged) buffer, and no call was
executed outside the reader's contract. -/
theorem C03_position_in_buffer (d : Bytes) (hd : d.length < 2 ^ 63) (cs : List Call)
    (hcs : ∀ c ∈ cs, c.InContract) :
    let s := runCalls cs (RS.init d)
    s.data = d ∧ s.pos ≤ d.length ∧ s.ub = false := by
  have key : ∀ (cs : List Call) (s : RS), s.OK → (∀ c ∈ cs, c.InContract) →
      (runCalls cs s).OK ∧ (runCalls cs s).data = s.data ∧ (runCalls cs s).ub = s.ub := by
    intro cs
    induction cs with
    | nil => intro s hs _; exact ⟨hs, rfl, rfl⟩
    | cons c cs ih =>
      intro s hs h
      obtain ⟨h1, h2, h3⟩ := c.safe (h c (by simp)) s hs
      obtain ⟨g1, g2, g3⟩ := ih (c.run s) h1 (fun c hc => h c (by simp [hc]))
      exact ⟨g1, by rw [← h2]; exact g2, by rw [← h3]; exact g3⟩
  obtain ⟨h1, h2, h3⟩ := key cs (RS.init d) ⟨Nat.zero_le _, hd⟩ hcs
  exact ⟨h2, by have := h1.wf; rw [h2] at this; exact this, h3⟩

/-- C03: what a read call delivers are the bytes at the current position (good reader afterwards), so a
successful read never returns anything but buffer content. -/
theorem C03_read_returns_buffer (s : RS) (n : Nat) (hpos : s.pos ≤ s.data.length)
    (hlen : s.data.length < 2 ^ 63) (hgood : (readBytes n s).2.good = true) :
    (readBytes n s).1 = (s.data.drop s.pos).take n ∧ (readBytes n s).1.length = n ∧
      (readBytes n s).2.pos = s.pos + n := by
  by_cases hn : n < offMax
  · obtain ⟨g, b, hp, ⟨hx, hl⟩, hst⟩ := (bwd_readBytes hn).back s ⟨hpos, hlen⟩ hgood
    rw [hx, hst]
    refine ⟨?_, hl, by rw [hl]; rfl⟩
    obtain ⟨t, ht⟩ := hp.trans (List.take_prefix _ _ : s.view <+: s.rest)
    show b = s.rest.take n
    rw [← ht, ← hl]; simp
  · exfalso
    unfold readBytes at hgood
    have hn' : offMax ≤ n := by omega
    have h0 : n ≠ 0 := by intro h; subst h; simp [offMax] at hn'
    rw [if_neg h0] at hgood
    cases hg : s.good with
    | false => simp [hg] at hgood
    | true =>
      simp only [hg, Bool.not_true, Bool.false_eq_true, if_false] at hgood
      obtain ⟨_, hl, _⟩ := doRead_good ⟨hpos, hlen⟩ hgood
      have := s.view_length
      have : offMax = 2 ^ 63 := rfl
      omega

theorem Call.sticky (c : Call) (hc : ¬ c.Clears) (s : RS) (hs : s.good = false) (hk : c.InContract) :
    (c.run s).good = false := by
  cases c with
  | readByte => exact tame_readByte.sticky s hs
  | peek => exact tame_peekByte.sticky s hs
  | readVariable => exact tame_readVariable.sticky s hs
  | readSize l => exact (tame_readSize l).sticky s hs
  | readLE n => exact (tame_readLE (n := n) hk).sticky s hs
  | readBE n => exact (tame_readBE (n := n) hk).sticky s hs
  | readBytes n => exact (tame_readBytes (n := n) hk).sticky s hs
  | readAll => exact tame_readAll.sticky s hs
  | skip n => exact (tame_doSkip (n := n) hk).sticky s hs
  | skipVariable => exact tame_skipVariable.sticky s hs
  | rewind n => exact (tame_doRewind (n := n) hk).sticky s hs
  | setPosition n => exact absurd trivial hc
  | setLimit n => exact hs
  | invalidate => rfl
  | readString l => exact absurd trivial hc
  | readStringBuffer n => exact absurd trivial hc
  | readLine t => exact (readLine_safe t).1.sticky s hs

/-- C03: once failed, the reader stays failed through any sequence of calls that contains none of the
calls documented to clear errors. -/
theorem C03_failure_sticky (s : RS) (hs : s.good = false) (cs : List Call)
    (hcs : ∀ c ∈ cs, c.InContract ∧ ¬ c.Clears) : (runCalls cs s).good = false := by
  induction cs generalizing s with
  | nil => exact hs
  | cons c cs ih =>
    exact ih (c.run s) (c.sticky (hcs c (by simp)).2 s hs (hcs c (by simp)).1)
      (fun c hc => hcs c (by simp [hc]))

example : (runCalls [.readBytes 3, .readByte, .rewind 1, .readVariable] (RS.init [1, 2])).good = false := by decide

/-! ## C46 -/

theorem Call.lim (c : Call) (hc : c.InContract) (hl : ¬ c.SetsLimit) (hr : ∀ n, c ≠ .rewind n) (s : RS) (hs : s.OK) :
    (c.run s).pos + (c.run s).rem ≤ s.pos + s.rem := by
  cases c with
  | readByte => exact lim_readByte s hs
  | peek => exact lim_peek s hs
  | readVariable => exact lim_readVariable s hs
  | readSize l => exact lim_readSize l s hs
  | readLE n => exact Lim.bind (tame_doRead (n := n) hc).safe (lim_doRead n) (fun _ => .pure _) s hs
  | readBE n => exact Lim.bind (tame_doRead (n := n) hc).safe (lim_doRead n) (fun _ => .pure _) s hs
  | readBytes n => exact lim_readBytes n s hs
  | readAll => exact lim_readAll s hs
  | skip n => exact lim_doSkip n s hs
  | skipVariable => exact lim_skipVariable s hs
  | rewind n => exact absurd rfl (hr n)
  | setPosition n => exact lim_setPosition n s hs
  | setLimit n => exact absurd trivial hl
  | invalidate => exact Nat.le_refl _
  | readString l => exact (readString_safe l).2 s hs
  | readStringBuffer n => exact (readStringBuffer_safe n).2 s hs
  | readLine t => exact (readLine_safe t).2 s hs

/-- A rewind that fits: the reader is good and the position is at least `n`. -/
def RewindFits (c : Call) (s : RS) : Prop := ∀ n, c = .rewind n → s.good = true ∧ n ≤ s.pos

/-- Every explicit rewind in the sequence fits at the moment it is made. -/
def RewindsFit : List Call → RS → Prop
  | [], _ => True
  | c :: cs, s => RewindFits c s ∧ RewindsFit cs (c.run s)

/-- C46 (partial): after `set_limit(n)` at position `p`, no sequence of calls moves the position beyond
`p + n` until the limit is changed — provided no explicit `rewind_bytes` fails on the way.  Missing from the full
statement: sequences with a failing rewind, for which it is false (`C46_limit_counterexample`). -/
theorem C46_limit_respected_partial (s : RS) (hpos : s.pos ≤ s.data.length) (hlen : s.data.length < 2 ^ 63)
    (n : Nat) (cs : List Call) (hcs : ∀ c ∈ cs, c.InContract ∧ ¬ c.SetsLimit)
    (hfit : RewindsFit cs (setLimit n s).2) :
    (runCalls cs (setLimit n s).2).pos ≤ s.pos + n := by
  have key : ∀ (cs : List Call) (s : RS), s.OK → (∀ c ∈ cs, c.InContract ∧ ¬ c.SetsLimit) → RewindsFit cs s →
      (runCalls cs s).pos + (runCalls cs s).rem ≤ s.pos + s.rem := by
    intro cs
    induction cs with
    | nil => intro s _ _ _; exact Nat.le_refl _
    | cons c cs ih =>
      intro s hs h hf
      have h1 := (c.safe (h c (by simp)).1 s hs).1
      refine Nat.le_trans (ih (c.run s) h1 (fun c hc => h c (by simp [hc])) hf.2) ?_
      by_cases hr : ∃ n, c = .rewind n
      · obtain ⟨n, rfl⟩ := hr
        obtain ⟨hg, hn⟩ := hf.1 n rfl
        exact (doRewind_lim hg hn).1
      · exact c.lim (h c (by simp)).1 (h c (by simp)).2 (fun n hn => hr ⟨n, hn⟩) s hs
  have := key cs (setLimit n s).2 ⟨hpos, hlen⟩ hcs hfit
  exact Nat.le_trans (Nat.le_add_right _ _) this

/-- The full C46 statement is false of the code: a rewind past the start fails but still raises the limit, so after
clearing the error three bytes are read under a limit of one. -/
theorem C46_limit_counterexample :
    let s := runCalls [.setLimit 1, .rewind 2, .setPosition 0, .readBytes 3] (RS.init [7, 8, 9])
    s.good = true ∧ s.pos = 3 := by decide

example : RewindsFit [.readBytes 2, .rewind 1, .readBytes 1] (setLimit 2 (RS.init [7, 8, 9])).2 := by
  refine ⟨?_, ?_, ?_, trivial⟩ <;> intro n hn <;> cases hn
  decide

/-! ## C47 -/

/-- `term` occurs in `v` at offset `k`. -/
def OccursAt (term v : Bytes) (k : Nat) : Prop := term <+: v.drop k

/-- The first byte of the terminator does not recur in it (true of "\n", "\r\n", ": "). -/
def SimpleTerminator (term : Bytes) : Prop := ∀ j, 0 < j → j < term.length → term[j]? ≠ term[0]?

theorem take_prefix_getElem {a b : Bytes} {i : Nat} (h : a.take i <+: b) (hi : i < a.length)
    (hb : b[i]? = a[i]?) : a.take (i + 1) <+: b := by
  rw [List.take_add_one]
  obtain ⟨t, rfl⟩ := h
  have hl : (a.take i).length = i := by simp; omega
  rw [List.getElem?_append_right (by omega), hl, Nat.sub_self] at hb
  cases t with
  | nil => simp at hb; omega
  | cons x t =>
    simp only [List.getElem?_cons_zero] at hb
    rw [← hb]
    exact ⟨t, by simp⟩

theorem occursAt_getElem {term v : Bytes} {k j : Nat} (h : OccursAt term v k) (hj : j < term.length) :
    v[k + j]? = term[j]? := by
  obtain ⟨t, ht⟩ := h
  have : (v.drop k)[j]? = term[j]? := by rw [← ht, List.getElem?_append_left hj]
  rwa [List.getElem?_drop] at this

theorem lineLengthLoop_first (term : Bytes) (hne : term ≠ []) (hs : SimpleTerminator term) (s : RS) (ok : s.OK)
    (hg : s.good = true) : ∀ (fuel i l : Nat), i < term.length → l + i ≤ s.view.length →
    s.view.length < l + i + fuel →
    term.take i <+: s.view.drop l → (∀ k < l, ¬ OccursAt term s.view k) →
    (∀ L, OccursAt term s.view L → (∀ k < L, ¬ OccursAt term s.view k) →
      lineLengthLoop term fuel i l (s.adv (l + i)) = (some L, s.adv (L + term.length))) ∧
    ((∀ k, ¬ OccursAt term s.view k) → (lineLengthLoop term fuel i l (s.adv (l + i))).1 = none) := by
  have hpos : 0 < term.length := List.length_pos_iff.mpr hne
  intro fuel
  induction fuel with
  | zero => intro i l _ h1 h2; omega
  | succ fuel ih =>
    intro i l hi hle hf hpre hno
    have occ_le : ∀ L, OccursAt term s.view L → L + term.length ≤ s.view.length := by
      intro L h
      have := List.IsPrefix.length_le h
      rw [List.length_drop] at this
      omega
    by_cases hend : l + i = s.view.length
    · have hex : (isExhausted (s.adv (l + i))).1 = true :=
        isExhausted_iff.mpr (.inr (by rw [RS.view_adv, hend]; simp))
      refine ⟨?_, ?_⟩
      · intro L hL hmin
        exfalso
        have hLl := occ_le L hL
        have : ¬ L < l := fun h => hno L h hL
        have hd : l < L := by
          rcases Nat.lt_trichotomy l L with h | h | h
          · exact h
          · omega
          · exact absurd h this
        omega
      · intro _; simp [lineLengthLoop, hex]
    · have hlt : l + i < s.view.length := by omega
      have hvl := s.view_length
      have okl : (s.adv (l + i)).OK := ok.adv hle
      have hne2 : (isExhausted (s.adv (l + i))).1 = false := by
        rw [Bool.eq_false_iff]
        intro h
        rcases isExhausted_iff.mp h with h | h
        · rw [RS.adv_good, hg] at h; cases h
        · have := congrArg List.length h
          rw [RS.view_adv, List.length_drop] at this
          simp at this; omega
      obtain ⟨b, hb⟩ : ∃ b, s.view[l + i]? = some b := ⟨_, List.getElem?_eq_getElem hlt⟩
      have hhead : (s.adv (l + i)).view.headD 0 = b := by
        rw [RS.view_adv, List.headD_eq_head?_getD, List.head?_drop, hb]; rfl
      have hadv : (s.adv (l + i)).adv 1 = s.adv (l + i + 1) := by simp
      have hstep : lineLengthLoop term (fuel + 1) i l (s.adv (l + i)) =
          if b = term.getD i 0 then
            if i + 1 = term.length then (some l, s.adv (l + i + 1))
            else lineLengthLoop term fuel (i + 1) l (s.adv (l + i + 1))
          else if i ≠ 0 then
            if b = term.headD 0 then lineLengthLoop term fuel 1 (l + i) (s.adv (l + i + 1))
            else lineLengthLoop term fuel 0 (l + i + 1) (s.adv (l + i + 1))
          else lineLengthLoop term fuel 0 (l + 1) (s.adv (l + i + 1)) := by
        conv => lhs; unfold lineLengthLoop
        rw [if_neg (by rw [hne2]; simp), readByte_one okl hne2]
        simp only [hhead, hadv]
      have hti : term[i]? = some (term.getD i 0) := by
        rw [List.getD_eq_getElem?_getD, List.getElem?_eq_getElem hi]; rfl
      have ht0 : term[0]? = some (term.headD 0) := by
        cases term with
        | nil => exact absurd rfl hne
        | cons x t => rfl
      -- positions strictly inside the partial match cannot start an occurrence
      have inner : ∀ k, l < k → k < l + i → ¬ OccursAt term s.view k := by
        intro k h1 h2 hk
        have e1 := occursAt_getElem hk hpos
        have e2 : s.view[k]? = term[k - l]? := by
          obtain ⟨t, ht⟩ := hpre
          have hlen : (term.take i).length = i := by simp; omega
          have : (s.view.drop l)[k - l]? = term[k - l]? := by
            rw [← ht, List.getElem?_append_left (by omega), List.getElem?_take_of_lt (by omega)]
          rw [List.getElem?_drop, show l + (k - l) = k by omega] at this
          exact this
        rw [Nat.add_zero] at e1
        exact hs (k - l) (by omega) (by omega) (e2.symm.trans e1)
      rw [hstep]
      by_cases hm : b = term.getD i 0
      · rw [if_pos hm]
        have hpre' : term.take (i + 1) <+: s.view.drop l := by
          refine take_prefix_getElem hpre hi ?_
          rw [List.getElem?_drop, hb, hti, hm]
        by_cases hfull : i + 1 = term.length
        · rw [if_pos hfull]
          have hocc : OccursAt term s.view l := by
            rw [hfull, List.take_length] at hpre'; exact hpre'
          refine ⟨?_, fun hno' => absurd hocc (hno' l)⟩
          intro L hL hmin
          have : L = l := by
            rcases Nat.lt_trichotomy L l with h | h | h
            · exact absurd hL (hno L h)
            · exact h
            · exact absurd hocc (hmin l h)
          subst this
          rw [Nat.add_assoc, hfull]
        · rw [if_neg hfull]
          exact ih (i + 1) l (by omega) (by omega) (by omega) hpre' hno
      · rw [if_neg hm]
        have notl : ¬ OccursAt term s.view l := by
          intro h
          have := occursAt_getElem h hi
          rw [hb, hti] at this
          exact hm (Option.some.inj this)
        by_cases hi0 : i = 0
        · subst hi0
          rw [if_neg (by simp)]
          refine ih 0 (l + 1) hpos (by omega) (by omega) (by simp) ?_
          intro k hk
          rcases Nat.lt_or_ge k l with h | h
          · exact hno k h
          · have : k = l := by omega
            subst this; exact notl
        · rw [if_pos hi0]
          have no2 : ∀ k < l + i, ¬ OccursAt term s.view k := by
            intro k hk
            rcases Nat.lt_trichotomy k l with h | h | h
            · exact hno k h
            · subst h; exact notl
            · exact inner k h hk
          by_cases hf0 : b = term.headD 0
          · rw [if_pos hf0]
            have h1l : 1 < term.length := by omega
            refine ih 1 (l + i) h1l (by omega) (by omega) ?_ no2
            refine take_prefix_getElem (i := 0) (by simp) hpos ?_
            rw [List.getElem?_drop, Nat.add_zero, hb, ht0, hf0]
          · rw [if_neg hf0]
            refine ih 0 (l + i + 1) hpos (by omega) (by omega) (by simp) ?_
            intro k hk
            rcases Nat.lt_or_ge k (l + i) with h | h
            · exact no2 k h
            · have : k = l + i := by omega
              subst this
              intro h
              have := occursAt_getElem h hpos
              rw [Nat.add_zero, hb, ht0] at this
              exact hf0 (Option.some.inj this)

/-- C47 (partial): reading a line splits the visible bytes at the first occurrence of the terminator and consumes the
terminator; if there is none, the reader fails. Proved for terminators whose first byte does not recur in them.
Missing: terminators that overlap themselves, for which it is false (`C47_read_line_counterexample`). -/
theorem C47_read_line_partial (term : Bytes) (hne : term ≠ []) (hsimple : SimpleTerminator term)
    (d : Bytes) (hd : d.length < 2 ^ 63) :
    (∀ L, OccursAt term d L → (∀ k < L, ¬ OccursAt term d k) →
      let r := readLine term (RS.init d)
      r.1 = d.take L ∧ r.2.good = true ∧ r.2.pos = L + term.length) ∧
    ((∀ k, ¬ OccursAt term d k) → (readLine term (RS.init d)).1 = [] ∧
      (readLine term (RS.init d)).2.good = false) := by
  have ok : (RS.init d).OK := ⟨Nat.zero_le _, hd⟩
  have hv : (RS.init d).view = d := by
    unfold RS.view RS.rest RS.init
    simp only [List.drop_zero]
    apply List.take_of_length_le
    have : maxSize = 2 ^ 64 - 1 := rfl
    omega
  have hpos : 0 < term.length := List.length_pos_iff.mpr hne
  obtain ⟨h1, h2⟩ := lineLengthLoop_first term hne hsimple (RS.init d) ok rfl (d.length + 1) 0 0 hpos
    (Nat.zero_le _) (by rw [hv]; omega) (by simp) (by intro k hk; omega)
  rw [hv] at h1 h2
  simp only [Nat.add_zero, RS.adv_zero] at h1 h2
  have hdl : (RS.init d).data.length = d.length := rfl
  refine ⟨?_, ?_⟩
  · intro L hL hmin
    have e := h1 L hL hmin
    have hLl : L + term.length ≤ d.length := by
      have := List.IsPrefix.length_le hL
      rw [List.length_drop] at this
      omega
    have hmax : maxSize = 2 ^ 64 - 1 := rfl
    have hoff : offMax = 2 ^ 63 := rfl
    intro r
    show r.1 = _ ∧ _
    cases L with
    | zero =>
      have : r = ([], (RS.init d).adv (0 + term.length)) := by
        show readLine term (RS.init d) = _
        unfold readLine
        rw [if_neg hne, hdl, e]
        rfl
      rw [this]
      exact ⟨by simp, rfl, by simp [RS.init]⟩
    | succ n =>
      have hrw : doRewind (n + 1 + term.length) ((RS.init d).adv (n + 1 + term.length)) = ((), RS.init d) :=
        doRewind_adv rfl (by omega) (by simp only [RS.init]; omega) (by simp [RS.init])
      have hrd : doRead (n + 1) (RS.init d) = (d.take (n + 1), (RS.init d).adv (n + 1)) :=
        doRead_ok ok rfl (by rw [List.length_take]; omega) (by rw [hv]; exact List.take_prefix _ _)
      have hsk : doSkip term.length ((RS.init d).adv (n + 1)) =
          ((), (RS.init d).adv (n + 1 + term.length)) := by
        have a1 : ¬ maxSize - (n + 1) < term.length := by omega
        have a2 : ¬ term.length = 0 := by omega
        have a3 : ¬ d.length - (n + 1) < term.length := by omega
        simp [doSkip, noteSize_small (show term.length < offMax by omega), RS.adv, RS.init, a1, hne, a3]
        omega
      have : r = (d.take (n + 1), (RS.init d).adv (n + 1 + term.length)) := by
        show readLine term (RS.init d) = _
        unfold readLine
        rw [if_neg hne, hdl, e]
        simp only [hrw, hrd, hsk]
      rw [this]
      exact ⟨rfl, rfl, by simp [RS.init]⟩
  · intro hno
    have e := h2 hno
    unfold readLine
    rw [if_neg hne, hdl]
    generalize lineLengthLoop term (d.length + 1) 0 0 (RS.init d) = L at e
    obtain ⟨o, s2⟩ := L
    simp only at e
    subst e
    exact ⟨rfl, rfl⟩

/-- The full C47 statement is false of the code: terminator "aab" occurs in "aaab" but is not found. -/
theorem C47_read_line_counterexample :
    OccursAt [97, 97, 98] [97, 97, 97, 98] 1 ∧
    (readLine [97, 97, 98] (RS.init [97, 97, 97, 98])).2.good = false := by
  refine ⟨⟨[], rfl⟩, by decide⟩

/-- Writing a line and reading it back returns the text, when the terminator does not begin inside it. -/
theorem C47_write_read_line (term text rest : Bytes) (hne : term ≠ []) (hsimple : SimpleTerminator term)
    (hd : (writeLine text term ++ rest).length < 2 ^ 63)
    (hno : ∀ k < text.length, ¬ OccursAt term (text ++ term ++ rest) k) :
    let r := readLine term (RS.init (writeLine text term ++ rest))
    r.1 = text ∧ r.2.good = true ∧ r.2.rest = rest := by
  have hw : writeLine text term = text ++ term := by simp [writeLine, writeStringBuffer]
  rw [hw] at hd ⊢
  have h := (C47_read_line_partial term hne hsimple _ hd).1 text.length
    ⟨rest, by rw [List.append_assoc, List.drop_left]⟩ hno
  refine ⟨?_, h.2.1, ?_⟩
  · have := h.1; rw [List.append_assoc, List.take_left] at this; rw [List.append_assoc]; exact this
  · have hdata : (readLine term (RS.init (text ++ term ++ rest))).2.data = text ++ term ++ rest :=
      (readLine_safe term).1.data _ ⟨Nat.zero_le _, hd⟩
    show List.drop _ _ = rest
    rw [hdata, h.2.2]
    exact List.drop_left' (by simp)

example : readLine [13, 10] (RS.init [72, 105, 13, 13, 10, 33]) =
    ([72, 105, 13], { RS.init [72, 105, 13, 13, 10, 33] with pos := 5, rem := maxSize - 5 }) := by decide
example : SimpleTerminator [13, 10] := by
  intro j h1 h2
  have : j = 1 := by simp at h2; omega
  subst this; decide

end Verif
