import Verif.Model.Utf

namespace Verif.Utf

theorem byte_all {P : UInt8 → Prop} (h : ∀ n : Fin 256, P (UInt8.ofNat n.val)) (b : UInt8) : P b := by
  have := h ⟨b.toNat, b.toNat_lt⟩
  simpa using this

theorem trailing_iff (b : UInt8) : trailing b = true ↔ 128 ≤ b.toNat ∧ b.toNat < 192 := by
  revert b; exact byte_all (by decide +kernel)

theorem leading1_iff (b : UInt8) : leading b 1 = true ↔ b.toNat < 128 := by
  revert b; exact byte_all (by decide +kernel)
theorem leading2_iff (b : UInt8) : leading b 2 = true ↔ 192 ≤ b.toNat ∧ b.toNat < 224 := by
  revert b; exact byte_all (by decide +kernel)
theorem leading3_iff (b : UInt8) : leading b 3 = true ↔ 224 ≤ b.toNat ∧ b.toNat < 240 := by
  revert b; exact byte_all (by decide +kernel)
theorem leading4_iff (b : UInt8) : leading b 4 = true ↔ 240 ≤ b.toNat ∧ b.toNat < 248 := by
  revert b; exact byte_all (by decide +kernel)

/-- A Unicode scalar value: a point up to 0x10ffff that is no surrogate. -/
def Scalar (p : Nat) : Prop := p ≤ 0x10ffff ∧ ¬ (0xd800 ≤ p ∧ p ≤ 0xdfff)

theorem scalar_iff (p : Nat) : isScalar p = true ↔ Scalar p := by
  simp only [isScalar, Scalar, Bool.or_eq_true, Bool.and_eq_true, decide_eq_true_eq]
  omega

theorem bneg {b : Bool} (h : ¬ b = true) : b = false := by simpa using h

theorem toNat_ofNat {n : Nat} (h : n < 256) : (UInt8.ofNat n).toNat = n := by
  rw [UInt8.toNat_ofNat']
  exact Nat.mod_eq_of_lt h

theorem ofNat_eq {b : UInt8} {n : Nat} (h : b.toNat = n) : UInt8.ofNat n = b := by
  subst h; simp

/-- The shape of a character: a leading byte that says the length, then trailing bytes. -/
theorem encode_shape {p : Nat} (h : Scalar p) : ∃ a tl, encode8One p = a :: tl ∧ leading a (tl.length + 1) = true ∧
    (∀ b ∈ tl, trailing b = true) ∧ trailing a = false ∧ (∀ k, leading a k = true → k = tl.length + 1) ∧ tl.length ≤ 3 := by
  have key : ∀ a tl, encode8One p = a :: tl → leading a (tl.length + 1) = true → (∀ b ∈ tl, trailing b = true) → tl.length ≤ 3 →
      trailing a = false ∧ (∀ k, leading a k = true → k = tl.length + 1) := by
    intro a tl _ hl _ h3
    have hcase : tl.length = 0 ∨ tl.length = 1 ∨ tl.length = 2 ∨ tl.length = 3 := by omega
    have ht := trailing_iff a
    have h1 := leading1_iff a
    have h2 := leading2_iff a
    have h3 := leading3_iff a
    have h4 := leading4_iff a
    constructor
    · apply bneg
      rcases hcase with e | e | e | e <;> rw [e] at hl <;> simp only [Nat.zero_add, Nat.reduceAdd] at hl <;> intro hh
      · have := h1.1 hl; have := ht.1 hh; omega
      · have := h2.1 hl; have := ht.1 hh; omega
      · have := h3.1 hl; have := ht.1 hh; omega
      · have := h4.1 hl; have := ht.1 hh; omega
    · intro k hk
      have hk4 : k = 1 ∨ k = 2 ∨ k = 3 ∨ k = 4 := by
        match k, hk with
        | 1, _ => simp
        | 2, _ => simp
        | 3, _ => simp
        | 4, _ => simp
      have hl' : (tl.length = 0 → a.toNat < 128) ∧ (tl.length = 1 → 192 ≤ a.toNat ∧ a.toNat < 224) ∧
          (tl.length = 2 → 224 ≤ a.toNat ∧ a.toNat < 240) ∧ (tl.length = 3 → 240 ≤ a.toNat ∧ a.toNat < 248) := by
        refine ⟨fun e => ?_, fun e => ?_, fun e => ?_, fun e => ?_⟩ <;> rw [e] at hl
        · exact h1.1 hl
        · exact h2.1 hl
        · exact h3.1 hl
        · exact h4.1 hl
      rcases hk4 with e | e | e | e <;> subst e
      · have := h1.1 hk; omega
      · have := h2.1 hk; omega
      · have := h3.1 hk; omega
      · have := h4.1 hk; omega
  have main : ∃ a tl, encode8One p = a :: tl ∧ leading a (tl.length + 1) = true ∧ (∀ b ∈ tl, trailing b = true) ∧ tl.length ≤ 3 := by
    have hp : p ≤ 0x10ffff := h.1
    unfold encode8One
    by_cases c1 : p < 0x80
    · rw [if_pos c1]
      refine ⟨_, _, rfl, (leading1_iff _).2 ?_, by simp, by simp⟩
      rw [toNat_ofNat (by omega)]; omega
    rw [if_neg c1]
    by_cases c2 : p < 0x800
    · rw [if_pos c2]
      refine ⟨_, _, rfl, (leading2_iff _).2 ?_, ?_, by simp⟩
      · rw [toNat_ofNat (by omega)]; omega
      · intro b hb
        simp only [List.mem_singleton] at hb
        rw [trailing_iff, hb, toNat_ofNat (by omega)]; omega
    rw [if_neg c2]
    by_cases c3 : p < 0x10000
    · rw [if_pos c3]
      refine ⟨_, _, rfl, (leading3_iff _).2 ?_, ?_, by simp⟩
      · rw [toNat_ofNat (by omega)]; omega
      · intro b hb
        simp only [List.mem_cons, List.not_mem_nil, or_false] at hb
        rcases hb with hb | hb <;> (rw [trailing_iff, hb, toNat_ofNat (by omega)]; omega)
    rw [if_neg c3]
    refine ⟨_, _, rfl, (leading4_iff _).2 ?_, ?_, by simp⟩
    · rw [toNat_ofNat (by omega)]; omega
    · intro b hb
      simp only [List.mem_cons, List.not_mem_nil, or_false] at hb
      rcases hb with hb | hb | hb <;> (rw [trailing_iff, hb, toNat_ofNat (by omega)]; omega)
  obtain ⟨a, tl, e, hl, ht, h3⟩ := main
  obtain ⟨x, y⟩ := key a tl e hl ht h3
  exact ⟨a, tl, e, hl, ht, x, y, h3⟩

theorem lead_false {a : UInt8} {n k : Nat} (hu : ∀ k, leading a k = true → k = n) (h : k ≠ n) : leading a k = false :=
  bneg fun e => h (hu k e)

theorem decode_encode {p : Nat} (h : Scalar p) (r : Bytes) : decode8One (encode8One p ++ r) = some (p, r) := by
  have hp : p ≤ 0x10ffff := h.1
  have hs := (scalar_iff p).2 h
  obtain ⟨a, tl, e, hl, ht, hna, hu, h3⟩ := encode_shape h
  unfold encode8One at e ⊢
  by_cases c1 : p < 0x80
  · rw [if_pos c1] at e ⊢
    simp only [List.cons.injEq] at e
    obtain ⟨ea, etl⟩ := e
    subst etl
    have e0 : a.toNat = p := by rw [← ea, toNat_ofNat (by omega)]
    simp only [List.length_nil, Nat.zero_add] at hl
    simp only [List.cons_append, List.nil_append, decode8One, ea, hl, if_true, e0]
  rw [if_neg c1] at e ⊢
  by_cases c2 : p < 0x800
  · rw [if_pos c2] at e ⊢
    simp only [List.cons.injEq] at e
    obtain ⟨ea, etl⟩ := e
    subst etl
    have e0 : a.toNat = 0xc0 + p / 64 := by rw [← ea, toNat_ofNat (by omega)]
    have l1 : leading a 1 = false := lead_false hu (by simp)
    have l2 : leading a 2 = true := hl
    have t1 := ht _ (List.mem_cons_self ..)
    have e1 : (UInt8.ofNat (0x80 + p % 64)).toNat = 0x80 + p % 64 := toNat_ofNat (by omega)
    have e2 : decide (0x80 ≤ p) = true := by simpa using by omega
    rw [ea]
    generalize UInt8.ofNat (0x80 + p % 64) = b at *
    have ep : a.toNat % 32 * 64 + b.toNat % 64 = p := by omega
    simp only [List.cons_append, List.nil_append, decode8One, l1, l2, t1, ep, hs, e2, if_true, Bool.not_true, Bool.false_eq_true, if_false, Bool.and_self]
  rw [if_neg c2] at e ⊢
  by_cases c3 : p < 0x10000
  · rw [if_pos c3] at e ⊢
    simp only [List.cons.injEq] at e
    obtain ⟨ea, etl⟩ := e
    subst etl
    have e0 : a.toNat = 0xe0 + p / 4096 := by rw [← ea, toNat_ofNat (by omega)]
    have l1 : leading a 1 = false := lead_false hu (by simp)
    have l2 : leading a 2 = false := lead_false hu (by simp)
    have l3 : leading a 3 = true := hl
    have t1 := ht _ (List.mem_cons_self ..)
    have t2 := ht _ (List.mem_cons_of_mem _ (List.mem_cons_self ..))
    have e1 : (UInt8.ofNat (0x80 + p / 64 % 64)).toNat = 0x80 + p / 64 % 64 := toNat_ofNat (by omega)
    have e2 : (UInt8.ofNat (0x80 + p % 64)).toNat = 0x80 + p % 64 := toNat_ofNat (by omega)
    have e4 : decide (0x800 ≤ p) = true := by simpa using by omega
    rw [ea]
    generalize UInt8.ofNat (0x80 + p % 64) = c at *
    generalize UInt8.ofNat (0x80 + p / 64 % 64) = b at *
    have ep : (a.toNat % 16 * 64 + b.toNat % 64) * 64 + c.toNat % 64 = p := by omega
    simp only [List.cons_append, List.nil_append, decode8One, l1, l2, l3, t1, t2, ep, hs, e4, if_true, Bool.not_true, Bool.false_eq_true, if_false, Bool.and_self]
  rw [if_neg c3] at e ⊢
  simp only [List.cons.injEq] at e
  obtain ⟨ea, etl⟩ := e
  subst etl
  have e0 : a.toNat = 0xf0 + p / 262144 := by rw [← ea, toNat_ofNat (by omega)]
  have l1 : leading a 1 = false := lead_false hu (by simp)
  have l2 : leading a 2 = false := lead_false hu (by simp)
  have l3 : leading a 3 = false := lead_false hu (by simp)
  have l4 : leading a 4 = true := hl
  have t1 := ht _ (List.mem_cons_self ..)
  have t2 := ht _ (List.mem_cons_of_mem _ (List.mem_cons_self ..))
  have t3 := ht _ (List.mem_cons_of_mem _ (List.mem_cons_of_mem _ (List.mem_cons_self ..)))
  have e1 : (UInt8.ofNat (0x80 + p / 4096 % 64)).toNat = 0x80 + p / 4096 % 64 := toNat_ofNat (by omega)
  have e2 : (UInt8.ofNat (0x80 + p / 64 % 64)).toNat = 0x80 + p / 64 % 64 := toNat_ofNat (by omega)
  have e3 : (UInt8.ofNat (0x80 + p % 64)).toNat = 0x80 + p % 64 := toNat_ofNat (by omega)
  have e4 : decide (0x10000 ≤ p) = true := by simpa using by omega
  rw [ea]
  generalize UInt8.ofNat (0x80 + p % 64) = d at *
  generalize UInt8.ofNat (0x80 + p / 64 % 64) = c at *
  generalize UInt8.ofNat (0x80 + p / 4096 % 64) = b at *
  have ep : ((a.toNat % 8 * 64 + b.toNat % 64) * 64 + c.toNat % 64) * 64 + d.toNat % 64 = p := by omega
  simp only [List.cons_append, List.nil_append, decode8One, l1, l2, l3, l4, t1, t2, t3, ep, hs, e4, if_true, Bool.not_true, Bool.false_eq_true, if_false, Bool.and_self]

theorem encode_decode {t r : Bytes} {p : Nat} (h : decode8One t = some (p, r)) : Scalar p ∧ t = encode8One p ++ r := by
  cases t with
  | nil => simp [decode8One] at h
  | cons a r1 =>
    rw [decode8One.eq_def] at h
    dsimp only at h
    by_cases l1 : leading a 1 = true
    · rw [if_pos l1] at h
      simp only [Option.some.injEq, Prod.mk.injEq] at h
      obtain ⟨e, er⟩ := h
      have := (leading1_iff a).1 l1
      subst er
      refine ⟨⟨by omega, by omega⟩, ?_⟩
      unfold encode8One
      rw [if_pos (by omega), ofNat_eq e]
      rfl
    rw [if_neg l1] at h
    cases r1 with
    | nil => simp at h
    | cons b r2 =>
      simp only [Bool.not_eq_true', Bool.and_eq_true, decide_eq_true_eq] at h
      by_cases t1 : trailing b = false
      · simp [t1] at h
      rw [if_neg t1] at h
      have tb := (trailing_iff b).1 (by simpa using t1)
      by_cases l2 : leading a 2 = true
      · rw [if_pos l2] at h
        split at h
        · rename_i hc
          simp only [Option.some.injEq, Prod.mk.injEq] at h
          obtain ⟨e, er⟩ := h
          subst er
          rw [e, scalar_iff] at hc
          have := (leading2_iff a).1 l2
          refine ⟨hc.2, ?_⟩
          unfold encode8One
          rw [if_neg (by omega), if_pos (by omega), ofNat_eq (b := a) (by omega), ofNat_eq (b := b) (by omega)]
          rfl
        · simp at h
      rw [if_neg l2] at h
      cases r2 with
      | nil => simp at h
      | cons c r3 =>
        by_cases t2 : trailing c = false
        · simp [t2] at h
        simp only [] at h
        rw [if_neg t2] at h
        have tc := (trailing_iff c).1 (by simpa using t2)
        by_cases l3 : leading a 3 = true
        · rw [if_pos l3] at h
          split at h
          · rename_i hc
            simp only [Option.some.injEq, Prod.mk.injEq] at h
            obtain ⟨e, er⟩ := h
            subst er
            rw [e, scalar_iff] at hc
            have := (leading3_iff a).1 l3
            refine ⟨hc.2, ?_⟩
            unfold encode8One
            rw [if_neg (by omega), if_neg (by omega), if_pos (by omega), ofNat_eq (b := a) (by omega), ofNat_eq (b := b) (by omega),
              ofNat_eq (b := c) (by omega)]
            rfl
          · simp at h
        rw [if_neg l3] at h
        cases r3 with
        | nil => simp at h
        | cons d r4 =>
          by_cases t3 : trailing d = false
          · simp [t3] at h
          simp only [] at h
          rw [if_neg t3] at h
          have td := (trailing_iff d).1 (by simpa using t3)
          by_cases l4 : leading a 4 = true
          · rw [if_pos l4] at h
            split at h
            · rename_i hc
              simp only [Option.some.injEq, Prod.mk.injEq] at h
              obtain ⟨e, er⟩ := h
              subst er
              rw [e, scalar_iff] at hc
              have := (leading4_iff a).1 l4
              refine ⟨hc.2, ?_⟩
              unfold encode8One
              rw [if_neg (by omega), if_neg (by omega), if_neg (by omega), ofNat_eq (b := a) (by omega), ofNat_eq (b := b) (by omega),
                ofNat_eq (b := c) (by omega), ofNat_eq (b := d) (by omega)]
              rfl
            · simp at h
          · rw [if_neg l4] at h
            simp at h

/-- The bytes of a text. -/
def bytesOf (points : List Nat) : Bytes := points.flatMap encode8One

theorem encode_ne {p : Nat} (h : Scalar p) : encode8One p ≠ [] := by
  obtain ⟨a, tl, e, _⟩ := encode_shape h
  rw [e]; simp

theorem decodeLoop_encode : ∀ (points : List Nat) (fuel : Nat), (∀ p ∈ points, Scalar p) → (bytesOf points).length ≤ fuel →
    decode8Loop fuel (bytesOf points) = some points
  | [], fuel, _, _ => by cases fuel <;> rfl
  | p :: ps, fuel, hs, hf => by
    have h := hs p (List.mem_cons_self ..)
    have e : bytesOf (p :: ps) = encode8One p ++ bytesOf ps := rfl
    have hd := decode_encode h (bytesOf ps)
    rw [e, List.length_append] at hf
    have hl : 0 < (encode8One p).length := List.length_pos_iff.2 (encode_ne h)
    cases fuel with
    | zero => omega
    | succ fuel =>
      have ih := decodeLoop_encode ps fuel (fun q hq => hs q (List.mem_cons_of_mem _ hq)) (by omega)
      rw [e]
      cases ht : encode8One p ++ bytesOf ps with
      | nil => simp at ht; exact absurd ht.1 (encode_ne h)
      | cons b bs =>
        rw [ht] at hd
        rw [decode8Loop, hd]
        simp only [Option.bind_some]
        rw [ih]
        rfl

theorem decodeLoop_inv : ∀ (fuel : Nat) (text : Bytes) (points : List Nat), decode8Loop fuel text = some points →
    (∀ p ∈ points, Scalar p) ∧ text = bytesOf points
  | fuel, [], points, h => by
    have : points = [] := by cases fuel <;> simpa [decode8Loop] using h.symm
    subst this
    exact ⟨by simp, rfl⟩
  | 0, _ :: _, _, h => by simp [decode8Loop] at h
  | fuel + 1, b :: bs, points, h => by
    rw [decode8Loop] at h
    cases hd : decode8One (b :: bs) with
    | none => rw [hd] at h; simp at h
    | some r =>
      obtain ⟨p, r⟩ := r
      rw [hd] at h
      simp only [Option.bind_some, Option.map_eq_some_iff] at h
      obtain ⟨ps, h1, h2⟩ := h
      subst h2
      obtain ⟨i1, i2⟩ := decodeLoop_inv fuel r ps h1
      obtain ⟨e1, e2⟩ := encode_decode hd
      refine ⟨?_, by rw [e2, i2]; rfl⟩
      intro q hq
      rcases List.mem_cons.1 hq with e | e
      · exact e ▸ e1
      · exact i1 q e

/-- A text is converted exactly if it is the bytes of scalar values, and then to those: each text has one set of bytes
and each set of bytes at most one text. -/
theorem C97_utf8 (text : Bytes) (points : List Nat) :
    decode8 text = some points ↔ (∀ p ∈ points, Scalar p) ∧ text = points.flatMap encode8One :=
  ⟨fun h => decodeLoop_inv _ _ _ h, fun h => by rw [decode8, h.2]; exact decodeLoop_encode points _ h.1 (Nat.le_refl _)⟩

/-! ## The remainder -/

theorem getD_append_right {a b : Bytes} {k : Nat} (h : k ≤ b.length) (hk : 0 < k) :
    (a ++ b).getD ((a ++ b).length - k) 0 = b.getD (b.length - k) 0 := by
  rw [List.length_append, List.getD_eq_getElem?_getD, List.getD_eq_getElem?_getD, List.getElem?_append_right (by omega)]
  congr 2
  omega

/-- A character's first bytes at the end of a text are found, whatever is before them. -/
theorem loop_lead (x : Bytes) (a : UInt8) (tl : Bytes) (ht : ∀ b ∈ tl, trailing b = true) (ha : trailing a = false) :
    ∀ (k len : Nat), 1 ≤ len → len ≤ tl.length + 1 → tl.length + 1 < k + len →
      remainderLoop (x ++ a :: tl) k len = if leading a (tl.length + 1) then 0 else tl.length + 1
  | 0, len, _, h2, h3 => by omega
  | k + 1, len, h1, h2, h3 => by
    rw [remainderLoop, getD_append_right (by simpa using h2) h1]
    by_cases e : len = tl.length + 1
    · subst e
      simp only [List.length_cons, Nat.sub_self, List.getD_cons_zero, ha, Bool.false_eq_true, if_false]
      cases leading a (tl.length + 1) <;> simp
    · have : trailing ((a :: tl).getD ((a :: tl).length - len) 0) = true := by
        apply ht
        have hlt : tl.length - len < tl.length := by omega
        have e2 : (a :: tl).length - len = (tl.length - len) + 1 := by simp only [List.length_cons]; omega
        rw [e2, List.getD_cons_succ, List.getD_eq_getElem?_getD, List.getElem?_eq_getElem hlt]
        exact List.getElem_mem hlt
      simp only [this, if_true]
      exact loop_lead x a tl ht ha k (len + 1) (by omega) (by omega) (by omega)

/-- What ends in the bytes `a :: tl`, `tl` trailing and `a` not. -/
theorem remainder_lead {x : Bytes} {a : UInt8} {tl : Bytes} (ht : ∀ b ∈ tl, trailing b = true) (ha : trailing a = false) (h3 : tl.length ≤ 3) :
    remainderSize (x ++ a :: tl) = if leading a (tl.length + 1) then 0 else tl.length + 1 := by
  rw [remainderSize, if_neg (by simp)]
  refine loop_lead x a tl ht ha _ 1 (by omega) (by omega) ?_
  simp only [List.length_append, List.length_cons]
  omega

theorem bytesOf_append (a b : List Nat) : bytesOf (a ++ b) = bytesOf a ++ bytesOf b := List.flatMap_append ..

theorem remainder_whole : ∀ {points : List Nat}, (∀ p ∈ points, Scalar p) → remainderSize (bytesOf points) = 0 := by
  intro points h
  rcases List.eq_nil_or_concat points with e | ⟨ps, p, e⟩
  · subst e; rfl
  · have e' : points = ps ++ [p] := by simpa using e
    subst e'
    obtain ⟨a, tl, e, hl, ht, ha, _, h3⟩ := encode_shape (h p (by simp))
    have e2 : bytesOf [p] = encode8One p := by simp [bytesOf]
    rw [bytesOf_append, e2, e, remainder_lead ht ha h3, hl]
    rfl

/-- A text cut anywhere: the remainder is the bytes of the last character that is not complete. -/
theorem C97_remainder {points : List Nat} (hs : ∀ p ∈ points, Scalar p) {p : Nat} (hp : Scalar p) {part rest : Bytes}
    (h : encode8One p = part ++ rest) (hr : rest ≠ []) : remainderSize (points.flatMap encode8One ++ part) = part.length := by
  cases part with
  | nil => rw [List.append_nil]; exact remainder_whole hs
  | cons b part =>
    obtain ⟨a, tl, e, _, ht, ha, hu, h3⟩ := encode_shape hp
    rw [e] at h
    simp only [List.cons_append, List.cons.injEq] at h
    obtain ⟨h1, h2⟩ := h
    subst h1
    have hlen : tl.length = part.length + rest.length := by rw [h2, List.length_append]
    have hrl : 0 < rest.length := List.length_pos_iff.2 hr
    rw [remainder_lead (fun c hc => ht c (by rw [h2]; exact List.mem_append_left _ hc)) ha (by omega),
      lead_false hu (by omega)]
    rfl

/-! ## Writing -/

theorem wideOne_length {w : Wide} {p : Nat} (h : Scalar p) : (wideOne w p).length ≤ (encode8One p).length := by
  have := List.length_pos_iff.2 (encode_ne h)
  cases w with
  | utf32 => exact this
  | utf16 =>
    show (encode16One p).length ≤ _
    unfold encode16One
    split
    · exact this
    · unfold encode8One
      rw [if_neg (by omega), if_neg (by omega), if_neg (by omega)]
      simp

theorem wide_length {w : Wide} : ∀ {points : List Nat}, (∀ p ∈ points, Scalar p) → (points.flatMap (wideOne w)).length ≤ (bytesOf points).length
  | [], _ => by simp
  | p :: ps, h => by
    have h1 := wideOne_length (w := w) (h p (List.mem_cons_self ..))
    have h2 := wide_length (w := w) (points := ps) fun q hq => h q (List.mem_cons_of_mem _ hq)
    have e : bytesOf (p :: ps) = encode8One p ++ bytesOf ps := rfl
    rw [e, List.flatMap_cons, List.length_append, List.length_append]
    omega

theorem toWide_whole {w : Wide} {points : List Nat} (h : ∀ p ∈ points, Scalar p) : toWide w (bytesOf points) = points.flatMap (wideOne w) := by
  rw [toWide, (C97_utf8 (bytesOf points) points).2 ⟨h, rfl⟩]
  rfl

/-- A cut text has its whole characters and the beginning of the next. -/
theorem cut : ∀ (points : List Nat) (text : Bytes), (∀ p ∈ points, Scalar p) → text <+: bytesOf points →
    ∃ whole part, whole <+: points ∧ text = bytesOf whole ++ part ∧
      (part = [] ∨ ∃ p rest, Scalar p ∧ encode8One p = part ++ rest ∧ rest ≠ [] ∧ whole ++ [p] <+: points)
  | [], text, _, h => by
    have : text = [] := List.prefix_nil.1 h
    subst this
    exact ⟨[], [], List.nil_prefix, rfl, Or.inl rfl⟩
  | p :: ps, text, hs, h => by
    have hp := hs p (List.mem_cons_self ..)
    have e : bytesOf (p :: ps) = encode8One p ++ bytesOf ps := rfl
    rw [e] at h
    by_cases hl : text.length < (encode8One p).length
    · have h' : text <+: encode8One p := List.prefix_of_prefix_length_le h (List.prefix_append ..) (by omega)
      obtain ⟨rest, hr⟩ := h'
      refine ⟨[], text, List.nil_prefix, rfl, Or.inr ⟨p, rest, hp, hr.symm, ?_, ?_⟩⟩
      · intro e; subst e; rw [List.append_nil] at hr; rw [hr] at hl; omega
      · exact ⟨ps, rfl⟩
    · have h' : encode8One p <+: text := List.prefix_of_prefix_length_le (List.prefix_append ..) h (by omega)
      obtain ⟨r, hr⟩ := h'
      subst hr
      obtain ⟨whole, part, w1, w2, w3⟩ := cut ps r (fun q hq => hs q (List.mem_cons_of_mem _ hq)) ((List.prefix_append_right_inj _).1 h)
      refine ⟨p :: whole, part, ?_, ?_, ?_⟩
      · exact (List.cons_prefix_cons).2 ⟨rfl, w1⟩
      · rw [w2, ← List.append_assoc]; rfl
      · rcases w3 with w3 | ⟨q, rest, a, b, c, d⟩
        · exact Or.inl w3
        · exact Or.inr ⟨q, rest, a, b, c, (List.cons_prefix_cons).2 ⟨rfl, d⟩⟩

/-- What a conversion of a cut text gives. -/
theorem toUtf16_cut {w : Wide} {n : Nat} {whole : List Nat} {part : Bytes} (hs : ∀ p ∈ whole, Scalar p)
    (hp : part = [] ∨ ∃ p rest, Scalar p ∧ encode8One p = part ++ rest ∧ rest ≠ []) (hn : (bytesOf whole ++ part).length ≤ 4 * n)
    (hne : bytesOf whole ++ part ≠ []) : toUtf16 w (4 * n) (bytesOf whole ++ part) = (part.length, whole.flatMap (wideOne w)) := by
  have hr : remainderSize (bytesOf whole ++ part) = part.length := by
    rcases hp with e | ⟨p, rest, a, b, c⟩
    · subst e; rw [List.append_nil]; exact remainder_whole hs
    · exact C97_remainder hs a b c
  rw [toUtf16, if_neg (by rintro (h | h); exact hne h; omega)]
  dsimp only
  rw [hr]
  have e : (bytesOf whole ++ part).take ((bytesOf whole ++ part).length - part.length) = bytesOf whole := by
    rw [List.length_append, Nat.add_sub_cancel]; exact List.take_left' rfl
  have hl := wide_length (w := w) hs
  rw [List.length_append] at hn
  rw [e, toWide_whole hs, if_pos (by omega)]

/-- The bytes a user wrote. -/
def putBytes (ops : List Op) : Bytes := ops.filterMap fun
  | .put b => some b
  | .flush => none

/-- The state of the stream after the bytes `text` of a valid text: some whole characters are written, the rest waits. -/
def Good (w : Wide) (points : List Nat) (text : Bytes) (s : Out) : Prop :=
  ∃ whole, whole <+: points ∧ text = bytesOf whole ++ s.pending ∧ s.written = whole.flatMap (wideOne w)

/-- Nothing but the beginning of a character waits. -/
def Flushed (points : List Nat) (text : Bytes) (s : Out) : Prop :=
  s.pending.length < 4 ∧ ∃ whole, whole <+: points ∧ text = bytesOf whole ++ s.pending ∧
    (s.pending = [] ∨ ∃ p rest, Scalar p ∧ encode8One p = s.pending ++ rest ∧ rest ≠ [] ∧ whole ++ [p] <+: points)

theorem encode_length {p : Nat} (h : Scalar p) : (encode8One p).length ≤ 4 := by
  obtain ⟨a, tl, e, _, _, _, _, h3⟩ := encode_shape h
  rw [e]; simp only [List.length_cons]; omega

theorem overflow_good {w : Wide} {n : Nat} {points : List Nat} (hs : ∀ p ∈ points, Scalar p) {text : Bytes} {s : Out} {c : Option UInt8}
    (hg : Good w points text s) (hlen : s.pending.length + c.toList.length ≤ 4 * n) (hpre : text ++ c.toList <+: bytesOf points) :
    ∃ t, overflow w n s c = some t ∧ Good w points (text ++ c.toList) t ∧ Flushed points (text ++ c.toList) t := by
  obtain ⟨done, h1, h2, h3⟩ := hg
  obtain ⟨restp, hrest⟩ := h1
  subst hrest
  have hroom : hasRoom n s c = true := by
    cases c with
    | none => rfl
    | some c => simp only [hasRoom]; simp only [Option.toList, List.length_cons, List.length_nil] at hlen; simpa using by omega
  have hpre' : s.pending ++ c.toList <+: bytesOf restp := by
    rw [h2, bytesOf_append, List.append_assoc] at hpre
    exact (List.prefix_append_right_inj _).1 hpre
  have hsr : ∀ p ∈ restp, Scalar p := fun p hp => hs p (List.mem_append_right _ hp)
  obtain ⟨whole, part, w1, w2, w3⟩ := cut restp _ hsr hpre'
  have hsw : ∀ p ∈ whole, Scalar p := fun p hp => hsr p (w1.subset hp)
  have goodness : ∀ t : Out, t.pending = part → t.written = s.written ++ whole.flatMap (wideOne w) →
      Good w (done ++ restp) (text ++ c.toList) t ∧ Flushed (done ++ restp) (text ++ c.toList) t := by
    intro t e1 e2
    have hp : done ++ whole <+: done ++ restp := (List.prefix_append_right_inj _).2 w1
    have et : text ++ c.toList = bytesOf (done ++ whole) ++ t.pending := by
      rw [h2, List.append_assoc, w2, bytesOf_append, e1, List.append_assoc]
    refine ⟨⟨done ++ whole, hp, et, by rw [e2, h3, List.flatMap_append]⟩, ?_, done ++ whole, hp, et, ?_⟩
    · rw [e1]
      rcases w3 with e | ⟨p, rest, a, b, c, d⟩
      · rw [e]; simp
      · have := encode_length a
        have := List.length_pos_iff.2 c
        rw [b, List.length_append] at *
        omega
    · rw [e1]
      rcases w3 with e | ⟨p, rest, a, b, c, d⟩
      · exact Or.inl e
      · refine Or.inr ⟨p, rest, a, b, c, ?_⟩
        rw [List.append_assoc]
        exact (List.prefix_append_right_inj _).2 d
  unfold overflow
  dsimp only
  rw [hroom]
  simp only [Bool.not_true, Bool.false_eq_true, if_false]
  by_cases hb : s.pending ++ c.toList = []
  · rw [if_pos hb]
    rw [hb] at w2
    have hw : bytesOf whole = [] ∧ part = [] := by simpa using w2.symm
    have hwn : whole = [] := by
      cases whole with
      | nil => rfl
      | cons p ps =>
        have : encode8One p ++ bytesOf ps = [] := hw.1
        simp only [List.append_eq_nil_iff] at this
        exact absurd this.1 (encode_ne (hsw p (List.mem_cons_self ..)))
    refine ⟨s, rfl, goodness s ?_ ?_⟩
    · rw [hw.2]; simp only [List.append_eq_nil_iff] at hb; exact hb.1
    · rw [hwn]; simp
  · rw [if_neg hb, w2, toUtf16_cut hsw (w3.imp id fun ⟨p, rest, a, b, c, _⟩ => ⟨p, rest, a, b, c⟩) (by rw [← w2, List.length_append]; exact hlen)
      (by rw [← w2]; exact hb)]
    refine ⟨_, rfl, goodness _ ?_ rfl⟩
    dsimp only
    rw [List.length_append, Nat.add_sub_cancel]
    exact List.drop_left' rfl

theorem good_initial (w : Wide) (points : List Nat) : Good w points [] initial := ⟨[], List.nil_prefix, rfl, rfl⟩

theorem run_good {w : Wide} {n : Nat} (hn : 0 < n) {points : List Nat} (hs : ∀ p ∈ points, Scalar p) :
    ∀ (ops : List Op) (text : Bytes) (s : Out), Good w points text s → s.pending.length ≤ 4 * n - 1 → text ++ putBytes ops <+: bytesOf points →
      ∃ t, run w n s ops = some t ∧ Good w points (text ++ putBytes ops) t ∧ t.pending.length ≤ 4 * n - 1
  | [], text, s, hg, hl, _ => ⟨s, rfl, by simpa [putBytes] using hg, hl⟩
  | .put b :: ops, text, s, hg, hl, hpre => by
    have e : putBytes (.put b :: ops) = b :: putBytes ops := rfl
    have ea : text ++ b :: putBytes ops = (text ++ [b]) ++ putBytes ops := by simp
    rw [e, ea] at hpre ⊢
    have hstep : ∃ t, step w n s (.put b) = some t ∧ Good w points (text ++ [b]) t ∧ t.pending.length ≤ 4 * n - 1 := by
      unfold step
      dsimp only
      by_cases hc : s.pending.length < 4 * n - 1
      · rw [if_pos hc]
        obtain ⟨whole, h1, h2, h3⟩ := hg
        refine ⟨_, rfl, ⟨whole, h1, by rw [h2, List.append_assoc], h3⟩, ?_⟩
        simp only [List.length_append, List.length_cons, List.length_nil]; omega
      · rw [if_neg hc]
        obtain ⟨t, a1, a2, a3⟩ := overflow_good (n := n) hs (c := some b) hg
          (by simp only [Option.toList, List.length_cons, List.length_nil]; omega) ((List.prefix_append ..).trans hpre)
        refine ⟨t, a1, a2, ?_⟩
        have := a3.1
        omega
    obtain ⟨t, s1, s2, s3⟩ := hstep
    obtain ⟨u, r1, r2, r3⟩ := run_good hn hs ops _ t s2 s3 hpre
    exact ⟨u, by rw [run, s1]; exact r1, r2, r3⟩
  | .flush :: ops, text, s, hg, hl, hpre => by
    have e : putBytes (.flush :: ops) = putBytes ops := rfl
    rw [e] at hpre ⊢
    obtain ⟨t, a1, a2, a3⟩ := overflow_good (n := n) hs (c := none) hg (by simp only [Option.toList, List.length_nil]; omega)
      (by simpa using (List.prefix_append ..).trans hpre)
    simp only [Option.toList, List.append_nil] at a2 a3
    have := a3.1
    obtain ⟨u, r1, r2, r3⟩ := run_good hn hs ops _ t a2 (by omega) hpre
    exact ⟨u, by rw [run]; show (overflow w n s none).bind _ = _; rw [a1]; exact r1, r2, r3⟩

theorem run_append (w : Wide) (n : Nat) : ∀ (a b : List Op) (s : Out), run w n s (a ++ b) = (run w n s a).bind fun t => run w n t b
  | [], _, _ => rfl
  | op :: a, b, s => by
    rw [List.cons_append, run, run]
    cases step w n s op with
    | none => rfl
    | some t => exact run_append w n a b t

/-- Any history of writes and flushes, of any sizes, of the bytes of a text or of a part of one: no byte is stored
outside the buffer, the characters given to the wide stream are those of the text, in order and unbroken, and the bytes
not given yet are kept. -/
theorem C97_write {w : Wide} {n : Nat} (hn : 0 < n) {points : List Nat} (hs : ∀ p ∈ points, Scalar p) {ops : List Op}
    (h : putBytes ops <+: points.flatMap encode8One) : ∃ t whole, run w n initial ops = some t ∧ whole <+: points ∧
      putBytes ops = whole.flatMap encode8One ++ t.pending ∧ t.written = whole.flatMap (wideOne w) ∧ t.pending.length < 4 * n := by
  obtain ⟨t, r1, ⟨whole, a, b, c⟩, r3⟩ := run_good (w := w) hn hs ops [] initial (good_initial w points) (by simp [initial]) h
  exact ⟨t, whole, r1, a, by simpa [bytesOf] using b, c, by omega⟩

/-- After a flush nothing waits but the beginning of one character. -/
theorem C97_flush {w : Wide} {n : Nat} (hn : 0 < n) {points : List Nat} (hs : ∀ p ∈ points, Scalar p) {ops : List Op}
    (h : putBytes ops <+: points.flatMap encode8One) : ∃ t whole, run w n initial (ops ++ [.flush]) = some t ∧ whole <+: points ∧
      putBytes ops = whole.flatMap encode8One ++ t.pending ∧ t.written = whole.flatMap (wideOne w) ∧
      (t.pending = [] ∨ ∃ p rest, whole ++ [p] <+: points ∧ encode8One p = t.pending ++ rest ∧ rest ≠ []) := by
  obtain ⟨s, r1, r2, r3⟩ := run_good (w := w) hn hs ops [] initial (good_initial w points) (by simp [initial]) h
  obtain ⟨t, a1, a2, a3⟩ := overflow_good (n := n) hs (c := none) r2 (by simp only [Option.toList, List.length_nil]; omega)
    (by simp only [Option.toList, List.append_nil]; exact h)
  simp only [Option.toList, List.append_nil, List.nil_append] at a2 a3
  obtain ⟨w1, g1, g2, g3⟩ := a2
  obtain ⟨_, w2, f1, f2, f3⟩ := a3
  have hb : bytesOf w1 = bytesOf w2 := List.append_cancel_right (g2.symm.trans f2)
  have hw : w1 = w2 := by
    have e1 := (C97_utf8 (bytesOf w1) w1).2 ⟨fun p hp => hs p (g1.subset hp), rfl⟩
    have e2 := (C97_utf8 (bytesOf w1) w2).2 ⟨fun p hp => hs p (f1.subset hp), hb⟩
    rw [e1] at e2
    exact Option.some.inj e2
  subst hw
  refine ⟨t, w1, ?_, g1, g2, g3, f3.imp id fun ⟨p, rest, _, b, c, d⟩ => ⟨p, rest, d, b, c⟩⟩
  rw [run_append, r1]
  show (overflow w n s none).bind _ = _
  rw [a1]
  rfl

/-- A whole text written in any pieces with flushes anywhere, and flushed at the end, is wholly converted. -/
theorem C97_write_whole {w : Wide} {n : Nat} (hn : 0 < n) {points : List Nat} (hs : ∀ p ∈ points, Scalar p) {ops : List Op}
    (h : putBytes ops = points.flatMap encode8One) :
    run w n initial (ops ++ [.flush]) = some ⟨[], points.flatMap (wideOne w)⟩ := by
  obtain ⟨t, whole, r, h1, h2, h3, h4⟩ := C97_flush (w := w) hn hs (ops := ops) (by rw [h]; exact List.prefix_refl _)
  obtain ⟨rest, hr⟩ := h1
  subst hr
  rw [h, List.flatMap_append] at h2
  have hpend : rest.flatMap encode8One = t.pending := List.append_cancel_left h2
  have hrest : rest = [] := by
    cases rest with
    | nil => rfl
    | cons q qs =>
      rcases h4 with h4 | ⟨p, r', a, b, c⟩
      · rw [← hpend] at h4
        rw [List.flatMap_cons, List.append_eq_nil_iff] at h4
        exact absurd h4.1 (encode_ne (hs q (by simp)))
      · have := (List.prefix_append_right_inj whole).1 a
        obtain ⟨x, hx⟩ := this
        simp only [List.cons_append, List.nil_append, List.cons.injEq] at hx
        obtain ⟨e, _⟩ := hx
        subst e
        rw [← hpend, List.flatMap_cons] at b
        have := congrArg List.length b
        have := List.length_pos_iff.2 c
        simp only [List.length_append] at *
        omega
  subst hrest
  rw [r]
  obtain ⟨pend, wr⟩ := t
  simp only [List.flatMap_nil] at hpend
  simp only at h3
  rw [← hpend, h3, List.append_nil]

/-! ## Any bytes -/

theorem loop_le (text : Bytes) : ∀ k len, remainderLoop text k len < k + len ∨ remainderLoop text k len = 0
  | 0, _ => Or.inr rfl
  | k + 1, len => by
    rw [remainderLoop]
    split
    · rcases loop_le text k (len + 1) with h | h
      · left; omega
      · exact Or.inr h
    · split
      · left; omega
      · exact Or.inr rfl

theorem remainder_le (text : Bytes) : remainderSize text ≤ 4 := by
  unfold remainderSize
  split
  · omega
  · have := loop_le text (min 4 text.length) 1
    omega

/-- A buffer for two wide characters or more is never overrun, whatever the bytes. -/
theorem C97_safe {w : Wide} {n : Nat} (hn : 2 ≤ n) (ops : List Op) :
    ∃ t, run w n initial ops = some t ∧ t.pending.length < 4 * n := by
  have over : ∀ (s : Out) (c : Option UInt8), s.pending.length < 4 * n → ∃ t, overflow w n s c = some t ∧ t.pending.length < 4 * n := by
    intro s c hl
    have hr : hasRoom n s c = true := by cases c <;> simp [hasRoom, hl]
    unfold overflow
    rw [hr]
    simp only [Bool.not_true, Bool.false_eq_true, if_false]
    split
    · exact ⟨s, rfl, hl⟩
    · refine ⟨_, rfl, ?_⟩
      have h4 : (toUtf16 w (4 * n) (s.pending ++ c.toList)).1 ≤ 4 := by
        unfold toUtf16
        split
        · simp
        · exact remainder_le _
      rw [List.length_drop]
      omega
  suffices h : ∀ (ops : List Op) (s : Out), s.pending.length < 4 * n → ∃ t, run w n s ops = some t ∧ t.pending.length < 4 * n from
    h ops initial (by simp [initial]; omega)
  intro ops
  induction ops with
  | nil => exact fun s h => ⟨s, rfl, h⟩
  | cons op ops ih =>
    intro s h
    have hs : ∃ t, step w n s op = some t ∧ t.pending.length < 4 * n := by
      cases op with
      | flush => exact over s none h
      | put b =>
        unfold step
        dsimp only
        split
        · refine ⟨_, rfl, ?_⟩
          simp only [List.length_append, List.length_cons, List.length_nil]; omega
        · exact over s (some b) h
    obtain ⟨t, h1, h2⟩ := hs
    obtain ⟨u, h3, h4⟩ := ih t h2
    exact ⟨u, by rw [run, h1]; exact h3, h4⟩

/-- Finding: a buffer for one wide character, which the constructor accepts, is overrun by bytes that are not text:
a letter and three trailing bytes all wait, so the next byte is stored after the end of the allocation. -/
theorem C97_overrun_counterexample : run .utf32 1 initial [.put 0x61, .put 0x80, .put 0x80, .put 0x80, .put 0x62] = none := by decide

/-- Finding: one byte that is not text drops all the text that waits with it, and the flush succeeds. -/
theorem C97_invalid_counterexample :
    run .utf32 4 initial [.put 0x61, .put 0x62, .put 0x63, .put 0xff, .put 0x64, .flush] = some ⟨[], []⟩ := by decide

/-! ## Reading -/

theorem toUtf8_scalar {w : Wide} {n : Nat} {points wide : List Nat} (hs : ∀ p ∈ points, Scalar p) (hne : wide ≠ []) (hn : wide.length ≤ n)
    (hw : fromWide w wide = some points) (hl : points.length ≤ wide.length) : toUtf8 w (4 * n) wide = bytesOf points := by
  have he : encode8 points = some (bytesOf points) := by
    rw [encode8, if_pos]; rfl
    rw [List.all_eq_true]
    exact fun p hp => (scalar_iff p).2 (hs p hp)
  have hlen : (bytesOf points).length ≤ 4 * points.length := by
    clear hw he hl
    induction points with
    | nil => simp [bytesOf]
    | cons p ps ih =>
      have := ih fun q hq => hs q (List.mem_cons_of_mem _ hq)
      have h4 := encode_length (hs p (List.mem_cons_self ..))
      have e : bytesOf (p :: ps) = encode8One p ++ bytesOf ps := rfl
      rw [e, List.length_append, List.length_cons]; omega
  rw [toUtf8, if_neg (by rintro (h | h); exact hne h; omega)]
  dsimp only
  rw [fromWideText, hw]
  simp only [Option.bind_some]
  rw [he]
  have e : orEmpty (some (bytesOf points)) = bytesOf points := rfl
  rw [e, if_pos (by omega)]

/-- Input of points (a `wchar_t` of 32 bits): the reads may return any number of characters, the bytes are those of
the whole text. -/
theorem C97_read {n : Nat} : ∀ {reads source : List Nat}, (∀ p ∈ source, Scalar p) → (∀ k ∈ reads, 1 ≤ k ∧ k ≤ n) →
    source.length ≤ reads.sum → readAll .utf32 n reads source = source.flatMap encode8One
  | [], source, _, _, hsum => by
    have : source = [] := List.length_eq_zero_iff.1 (by simpa using hsum)
    subst this; rfl
  | k :: ks, source, hs, hk, hsum => by
    obtain ⟨h1, h2⟩ := hk k (List.mem_cons_self ..)
    rw [readAll, Nat.min_eq_left h2]
    dsimp only
    cases source with
    | nil => simp
    | cons p ps =>
      have hne : (p :: ps).take k ≠ [] := by
        cases k with
        | zero => omega
        | succ k => simp
      rw [if_neg hne]
      have hst : ∀ q ∈ (p :: ps).take k, Scalar q := fun q hq => hs q (List.mem_of_mem_take hq)
      have hb := toUtf8_scalar (w := .utf32) (n := n) hst hne (by rw [List.length_take]; omega)
        (by rw [fromWide, if_pos (by rw [List.all_eq_true]; exact fun q hq => (scalar_iff q).2 (hst q hq))]) (Nat.le_refl _)
      have hbn : bytesOf ((p :: ps).take k) ≠ [] := by
        cases k with
        | zero => omega
        | succ k =>
          intro e
          have e' : encode8One p ++ bytesOf (ps.take k) = [] := e
          rw [List.append_eq_nil_iff] at e'
          exact encode_ne (hs p (List.mem_cons_self ..)) e'.1
      rw [hb, if_neg hbn]
      have ih := C97_read (n := n) (reads := ks) (source := (p :: ps).drop k) (fun q hq => hs q (List.mem_of_mem_drop hq))
        (fun j hj => hk j (List.mem_cons_of_mem _ hj)) (by rw [List.length_drop]; rw [List.sum_cons] at hsum; omega)
      rw [ih, bytesOf, ← List.flatMap_append, List.take_append_drop]

theorem decode16_one {p : Nat} (h : Scalar p) (r : List Nat) : decode16 (encode16One p ++ r) = (decode16 r).map (p :: ·) := by
  have hp := h.1
  have hs := (scalar_iff p).2 h
  unfold encode16One
  by_cases c : p < 0x10000
  · rw [if_pos c]
    cases r with
    | nil => simp [decode16, hs, c]
    | cons v r => simp [decode16, hs, c]
  · rw [if_neg c]
    have e1 : isScalar (0xd800 + (p - 0x10000) / 1024) = false := by
      apply bneg; rw [scalar_iff]; intro hh; have := hh.2; omega
    have e2 : 0x10000 + (0xd800 + (p - 0x10000) / 1024 - 0xd800) * 1024 + (0xdc00 + (p - 0x10000) % 1024 - 0xdc00) = p := by omega
    have c1 : decide (0xd800 ≤ 0xd800 + (p - 0x10000) / 1024) = true := by simpa using by omega
    have c2 : decide (0xd800 + (p - 0x10000) / 1024 < 0xdc00) = true := by simpa using by omega
    have c3 : decide (0xdc00 ≤ 0xdc00 + (p - 0x10000) % 1024) = true := by simpa using by omega
    have c4 : decide (0xdc00 + (p - 0x10000) % 1024 < 0xe000) = true := by simpa using by omega
    rw [List.cons_append, List.cons_append, List.nil_append, decode16.eq_def]
    dsimp only
    rw [e1, c1, c2, c3, c4, e2]
    rfl

theorem decode16_all : ∀ {points : List Nat}, (∀ p ∈ points, Scalar p) → decode16 (points.flatMap encode16One) = some points
  | [], _ => rfl
  | p :: ps, h => by
    rw [List.flatMap_cons, decode16_one (h p (List.mem_cons_self ..)), decode16_all fun q hq => h q (List.mem_cons_of_mem _ hq)]
    rfl

theorem encode16_length (points : List Nat) : points.length ≤ (points.flatMap encode16One).length := by
  induction points with
  | nil => simp
  | cons p ps ih =>
    rw [List.flatMap_cons, List.length_append, List.length_cons]
    have : 1 ≤ (encode16One p).length := by unfold encode16One; split <;> simp
    omega

/-- Input of 16 bit units (a `wchar_t` of 16 bits), when each read returns whole characters, at most as many units as
were asked for. What is missing: a read that ends between the two units of a character, see below. -/
theorem C97_read_utf16_partial {n : Nat} : ∀ {chunks : List (List Nat)}, (∀ c ∈ chunks, c ≠ [] ∧ (∀ p ∈ c, Scalar p) ∧ (c.flatMap encode16One).length ≤ n) →
    readAll .utf16 n (chunks.map fun c => (c.flatMap encode16One).length) (chunks.flatten.flatMap encode16One) = chunks.flatten.flatMap encode8One
  | [], _ => rfl
  | c :: cs, h => by
    obtain ⟨hne, hs, hl⟩ := h c (List.mem_cons_self ..)
    have hpos : c.flatMap encode16One ≠ [] := by
      have := encode16_length c
      have := List.length_pos_iff.2 hne
      exact List.length_pos_iff.1 (by omega)
    rw [List.map_cons, readAll, Nat.min_eq_left hl, List.flatten_cons, List.flatMap_append, List.take_left' rfl, List.drop_left' rfl]
    dsimp only
    have hb := toUtf8_scalar (w := .utf16) (n := n) hs hpos hl (by rw [fromWide, decode16_all hs]) (encode16_length c)
    have hbn : bytesOf c ≠ [] := by
      cases c with
      | nil => exact absurd rfl hne
      | cons p ps =>
        intro e
        have e' : encode8One p ++ bytesOf ps = [] := e
        rw [List.append_eq_nil_iff] at e'
        exact encode_ne (hs p (List.mem_cons_self ..)) e'.1
    rw [if_neg hpos, hb, if_neg hbn, C97_read_utf16_partial fun d hd => h d (List.mem_cons_of_mem _ hd), List.flatMap_append, bytesOf]

/-- Finding: with a `wchar_t` of 16 bits, a read that ends between the two units of a character ends the input, and
all that the read returned is lost: here "ab" and an emoji, read in blocks of three, yield nothing. -/
theorem C97_read_counterexample : (∀ p ∈ [0x61, 0x62, 0x1f600, 0x63], Scalar p) ∧
    readAll .utf16 3 [3, 3] ([0x61, 0x62, 0x1f600, 0x63].flatMap encode16One) = [] := by
  refine ⟨?_, by decide⟩
  unfold Scalar; decide

/-! ## The hypotheses are met -/

example : ∀ p ∈ [0x61, 0xe9, 0x20ac, 0x1f600], Scalar p := by unfold Scalar; decide
example : [0x61, 0xe9, 0x20ac, 0x1f600].flatMap encode8One = [0x61, 0xc3, 0xa9, 0xe2, 0x82, 0xac, 0xf0, 0x9f, 0x98, 0x80] := by decide
example : remainderSize [0x61, 0xe2, 0x82] = 2 := by decide
example : run .utf16 1 initial [.put 0x61, .flush, .put 0xe2, .flush, .put 0x82, .put 0xac, .put 0xf0, .put 0x9f, .put 0x98, .flush, .put 0x80, .flush] =
    some ⟨[], [0x61, 0x20ac, 0xd83d, 0xde00]⟩ := by decide
example : readAll .utf32 2 [1, 2, 1] [0x61, 0x20ac, 0x1f600] = [0x61, 0xe2, 0x82, 0xac, 0xf0, 0x9f, 0x98, 0x80] := by decide
example : ∀ c ∈ [[0x61], [0x1f600]], c ≠ [] ∧ (∀ p ∈ c, Scalar p) ∧ (c.flatMap encode16One).length ≤ 2 := by unfold Scalar; decide

end Verif.Utf
