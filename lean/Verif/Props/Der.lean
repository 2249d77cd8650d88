import Verif.Spec.Der
import Verif.Lemmas.Stream
/-!
# C28: strict and lax signature encodings
-/
namespace Verif.Der
open Verif Verif.Der.Spec

theorem bind_def {α β : Type} (a : R α) (f : α → R β) : (a >>= f) = R.bind a f := rfl
theorem pure_def {α : Type} (a : α) : (pure a : R α) = R.ok a := rfl

theorem refuse_ok {β : Type} (c : Bool) (f : Unit → R β) (v : β) : R.bind (refuseIf c) f = .ok v ↔ c = false ∧ f () = .ok v := by
  cases c <;> simp [refuseIf, R.bind]
theorem refuse_ub {β : Type} (c : Bool) (f : Unit → R β) : R.bind (refuseIf c) f ≠ .ub ↔ (c = false → f () ≠ .ub) := by
  cases c <;> simp [refuseIf, R.bind]
theorem at_ok {β : Type} (sig : Bytes) (i : Nat) (f : UInt8 → R β) (v : β) :
    R.bind (at_ sig i) f = .ok v ↔ ∃ b, sig[i]? = some b ∧ f b = .ok v := by
  unfold at_; cases sig[i]? <;> simp [R.bind]
theorem at_ub {β : Type} (sig : Bytes) (i : Nat) (f : UInt8 → R β) :
    R.bind (at_ sig i) f ≠ .ub ↔ ∃ b, sig[i]? = some b ∧ f b ≠ .ub := by
  unfold at_; cases sig[i]? <;> simp [R.bind]
theorem andThen_ok {β : Type} (a : Bool) (b : R Bool) (f : Bool → R β) (v : β) :
    R.bind (andThen a b) f = .ok v ↔ (a = false ∧ f false = .ok v) ∨ (a = true ∧ R.bind b f = .ok v) := by
  cases a <;> simp [andThen, R.bind]
theorem andThen_ub {β : Type} (a : Bool) (b : R Bool) (f : Bool → R β) :
    R.bind (andThen a b) f ≠ .ub ↔ (a = false → f false ≠ .ub) ∧ (a = true → R.bind b f ≠ .ub) := by
  cases a <;> simp [andThen, R.bind]
theorem bind_assoc {α β γ : Type} (a : R α) (f : α → R β) (g : β → R γ) :
    R.bind (R.bind a f) g = R.bind a (fun x => R.bind (f x) g) := by cases a <;> rfl
theorem ok_bind {α β : Type} (a : α) (f : α → R β) : R.bind (.ok a) f = f a := rfl
theorem refuse_last (c : Bool) : refuseIf c = .ok () ↔ c = false := by cases c <;> simp [refuseIf]
theorem refuse_last_ub (c : Bool) : refuseIf c ≠ .ub := by cases c <;> simp [refuseIf]

/-- A property of all bytes follows from the 256 of them. -/
theorem byte_forall {p : UInt8 → Prop} (h : ∀ n < 256, p (UInt8.ofNat n)) (b : UInt8) : p b := by
  have := h b.toNat b.toNat_lt
  rwa [UInt8.ofNat_toNat] at this

theorem high_iff (b : UInt8) : (b &&& 0x80 = 0) ↔ b < 0x80 := by
  revert b; exact fun b => byte_forall (p := fun b => (b &&& 0x80 = 0) ↔ b < 0x80) (by set_option maxRecDepth 4000 in decide) b

theorem high_iff' (b : UInt8) : (b &&& 0x80 ≠ 0) ↔ 0x80 ≤ b := by
  rw [Ne, high_iff, UInt8.not_lt]

theorem exists_cons {α : Type} {l : List α} (h : 1 ≤ l.length) : ∃ a t, l = a :: t := by
  cases l with
  | nil => simp at h
  | cons a t => exact ⟨a, t, rfl⟩

/-- The bytes the checks look at, in a signature of at least eight bytes whose R length leaves room. -/
theorem shape {sig : Bytes} (h8 : 8 ≤ sig.length) :
    ∃ b0 b1 b2 b3 rest, sig = b0 :: b1 :: b2 :: b3 :: rest := by
  obtain ⟨b0, t, rfl⟩ := exists_cons (l := sig) (by omega)
  obtain ⟨b1, t, rfl⟩ := exists_cons (l := t) (by simp at h8; omega)
  obtain ⟨b2, t, rfl⟩ := exists_cons (l := t) (by simp at h8; omega)
  obtain ⟨b3, t, rfl⟩ := exists_cons (l := t) (by simp at h8; omega)
  exact ⟨b0, b1, b2, b3, t, rfl⟩

theorem getElem_off (b0 b1 b2 b3 : UInt8) (r q : Bytes) (k : Nat) : (b0 :: b1 :: b2 :: b3 :: (r ++ q))[4 + r.length + k]? = q[k]? := by
  rw [show 4 + r.length + k = (r.length + k) + 1 + 1 + 1 + 1 by omega]
  simp only [List.getElem?_cons_succ]
  rw [List.getElem?_append_right (by omega)]
  congr 1; omega

/-- Split after R. -/
theorem shape2 {rest : Bytes} {n : Nat} (h : n + 2 ≤ rest.length) :
    ∃ r t l s, r.length = n ∧ rest = r ++ t :: l :: s := by
  obtain ⟨t, q, hq⟩ := exists_cons (l := rest.drop n) (by simp; omega)
  obtain ⟨l, s, rfl⟩ := exists_cons (l := q) (by have := congrArg List.length hq; simp at this; omega)
  exact ⟨rest.take n, t, l, s, by simp; omega, by rw [← hq, List.take_append_drop]⟩

theorem minimal_one (x : UInt8) : MinimalInteger [x] ↔ x < 0x80 := by
  constructor
  · rintro ⟨b, u, h, h1, -⟩; cases h; exact h1
  · intro h; exact ⟨x, [], rfl, h, fun _ c u h => by cases h⟩

theorem minimal_two (x y : UInt8) (z : Bytes) : MinimalInteger (x :: y :: z) ↔ x < 0x80 ∧ (x = 0 → 0x80 ≤ y) := by
  constructor
  · rintro ⟨b, u, h, h1, h2⟩; cases h; exact ⟨h1, fun h0 => h2 h0 _ _ rfl⟩
  · rintro ⟨h1, h2⟩; exact ⟨x, y :: z, rfl, h1, fun h0 c u h => by cases h; exact h2 h0⟩

theorem ok_bip66 (b0 b1 b2 b3 t l : UInt8) (r s : Bytes) (hr : r.length = b3.toNat) :
    bip66 (b0 :: b1 :: b2 :: b3 :: (r ++ t :: l :: s)) = .ok () ↔
      r.length + s.length + 6 ≤ 72 ∧ b0 = 0x30 ∧ b1.toNat = r.length + s.length + 4 ∧ b2 = 2 ∧ t = 2 ∧ l.toNat = s.length ∧
      MinimalInteger r ∧ MinimalInteger s := by
  have e : ∀ k, (b0 :: b1 :: b2 :: b3 :: (r ++ t :: l :: s))[4 + r.length + k]? = (t :: l :: s)[k]? := getElem_off b0 b1 b2 b3 r _
  have e0 : (b0 :: b1 :: b2 :: b3 :: (r ++ t :: l :: s))[4 + b3.toNat]? = some t := by rw [← hr]; exact e 0
  have e1 : (b0 :: b1 :: b2 :: b3 :: (r ++ t :: l :: s))[5 + b3.toNat]? = some l := by
    rw [← hr, show 5 + r.length = 4 + r.length + 1 by omega, e]; rfl
  have e2 : (b0 :: b1 :: b2 :: b3 :: (r ++ t :: l :: s))[6 + b3.toNat]? = s[0]? := by
    rw [← hr, show 6 + r.length = 4 + r.length + 2 by omega, e]; rfl
  have e3 : (b0 :: b1 :: b2 :: b3 :: (r ++ t :: l :: s))[7 + b3.toNat]? = s[1]? := by
    rw [← hr, show 7 + r.length = 4 + r.length + 3 by omega, e]; rfl
  unfold bip66
  simp only [bind_def, pure_def, refuse_ok, at_ok, andThen_ok, bind_assoc, ok_bind, refuse_last, e0, e1, e2, e3,
    Option.some.injEq, exists_eq_left', List.getElem?_cons_zero, List.getElem?_cons_succ]
  rw [← hr]
  cases r with
  | nil =>
    simp only [List.length_nil, beq_self_eq_true, Bool.true_eq_false, false_and, and_false, false_iff]
    rintro ⟨-, -, -, -, -, -, ⟨b, t, h, -⟩, -⟩; cases h
  | cons r0 r' =>
    cases s with
    | nil =>
      simp only [List.getElem?_nil, false_and, exists_false, and_false, or_false, false_iff, reduceCtorEq]
      rintro ⟨-, -, -, -, -, -, -, b, t, h, -⟩; cases h
    | cons s0 s' =>
      clear e e0 e1 e2 e3
      simp only [Option.some.injEq, exists_eq_left', List.getElem?_cons_zero, List.length_cons, List.length_append,
        decide_eq_false_iff_not, bne_eq_false_iff_eq, beq_eq_false_iff_ne, decide_eq_true_eq, high_iff, List.cons_append,
        List.getElem?_cons_succ, beq_iff_eq]
      clear hr
      rcases r' with _ | ⟨r1, r'⟩ <;> rcases s' with _ | ⟨s1, s'⟩ <;>
        simp only [List.length_nil, List.length_cons, List.nil_append, List.cons_append, List.getElem?_cons_zero, Option.some.injEq,
          exists_eq_left', high_iff', List.getElem?_nil, false_and, exists_false, reduceCtorEq, minimal_one, minimal_two] <;>
        grind

/-! ## strict -/

theorem bip66_bounds {sig : Bytes} (h : bip66 sig = .ok ()) :
    8 ≤ sig.length ∧ ∀ b, sig[3]? = some b → 5 + b.toNat < sig.length := by
  unfold bip66 at h
  simp only [bind_def, refuse_ok, at_ok] at h
  obtain ⟨h8, _, b0, _, _, b1, _, _, b3, h3, hr, _⟩ := h
  rw [decide_eq_false_iff_not] at h8 hr
  refine ⟨by omega, fun b hb => ?_⟩
  rw [h3] at hb; cases hb; omega

/-- The strict check never reads outside of the signature. -/
theorem C28_strict_total (sig : Bytes) : bip66 sig ≠ .ub := by
  unfold bip66
  simp only [bind_def, pure_def, refuse_ub, at_ub, andThen_ub, bind_assoc, ok_bind, decide_eq_false_iff_not, bne_eq_false_iff_eq]
  intro h8 _
  refine ⟨_, List.getElem?_eq_getElem (by omega), fun _ => ⟨_, List.getElem?_eq_getElem (by omega), fun _ => ?_⟩⟩
  refine ⟨_, List.getElem?_eq_getElem (by omega), fun hr => ⟨_, List.getElem?_eq_getElem (by omega), fun hs => ?_⟩⟩
  refine ⟨_, List.getElem?_eq_getElem (by omega), fun _ hr0 => ⟨_, List.getElem?_eq_getElem (by omega), fun _ => ?_⟩⟩
  rw [beq_eq_false_iff_ne] at hr0
  have tail : ∀ z : Bool, (z = false → ∃ b, sig[4 + sig[3].toNat]? = some b ∧ ((b = 2) → ((sig[5 + sig[3].toNat].toNat == 0) = false) →
      ∃ b, sig[6 + sig[3].toNat]? = some b ∧ ((b &&& 0x80 = 0) →
        (¬ sig[5 + sig[3].toNat].toNat > 1 → refuseIf false ≠ .ub) ∧
        (decide (sig[5 + sig[3].toNat].toNat > 1) = true → ∃ b, sig[6 + sig[3].toNat]? = some b ∧ ((b == 0) = false → refuseIf false ≠ .ub) ∧
          ((b == 0) = true → ∃ b, sig[7 + sig[3].toNat]? = some b ∧ refuseIf (b &&& 0x80 == 0) ≠ .ub))))) := by
    intro z _
    refine ⟨_, List.getElem?_eq_getElem (by omega), fun _ h0 => ?_⟩
    rw [beq_eq_false_iff_ne] at h0
    refine ⟨_, List.getElem?_eq_getElem (by omega), fun _ => ⟨fun _ => refuse_last_ub _, fun h1 => ?_⟩⟩
    rw [decide_eq_true_eq] at h1
    exact ⟨_, List.getElem?_eq_getElem (by omega), fun _ => refuse_last_ub _, fun _ => ⟨_, List.getElem?_eq_getElem (by omega), refuse_last_ub _⟩⟩
  refine ⟨fun _ _ => tail false rfl, fun h1 => ?_⟩
  rw [decide_eq_true_eq] at h1
  exact ⟨_, List.getElem?_eq_getElem (by omega), fun _ _ => tail false rfl, fun _ => ⟨_, List.getElem?_eq_getElem (by omega), tail _⟩⟩

/-- Strict signatures are exactly BIP66's. -/
theorem C28_strict (sig : Bytes) : bip66 sig = .ok () ↔ ∃ r s, Strict sig r s := by
  constructor
  · intro h
    obtain ⟨h8, h3⟩ := bip66_bounds h
    obtain ⟨b0, b1, b2, b3, rest, rfl⟩ := shape h8
    have := h3 b3 rfl
    simp only [List.length_cons] at this
    obtain ⟨r, t, l, s, hr, rfl⟩ := shape2 (rest := rest) (n := b3.toNat) (by omega)
    rw [ok_bip66 _ _ _ _ _ _ _ _ hr] at h
    obtain ⟨hn, rfl, h1, rfl, rfl, hl, mr, ms⟩ := h
    refine ⟨r, s, mr, ms, by simp; omega, ?_⟩
    rw [← h1, ← hl, hr]
    simp
  · rintro ⟨r, s, mr, ms, hlen, rfl⟩
    simp only [List.length_append, List.length_cons, List.length_nil] at hlen
    have e : [0x30, UInt8.ofNat (r.length + s.length + 4), 0x02, UInt8.ofNat r.length] ++ r ++ [0x02, UInt8.ofNat s.length] ++ s =
        0x30 :: UInt8.ofNat (r.length + s.length + 4) :: 2 :: UInt8.ofNat r.length :: (r ++ 2 :: UInt8.ofNat s.length :: s) := by simp
    rw [e, ok_bip66 _ _ _ _ _ _ _ _ (by rw [UInt8.toNat_ofNat_of_lt' (by simp [UInt8.size]; omega)])]
    refine ⟨by omega, rfl, ?_, rfl, rfl, ?_, mr, ms⟩
    · rw [UInt8.toNat_ofNat_of_lt' (by simp [UInt8.size]; omega)]
    · rw [UInt8.toNat_ofNat_of_lt' (by simp [UInt8.size]; omega)]

/-! ## lax -/

theorem beNat_append (a b : Bytes) : beNat (a ++ b) = beNat a * 256 ^ b.length + beNat b := by
  unfold beNat
  rw [List.reverse_append, leNat_append, List.length_reverse]
  rw [Nat.mul_comm]; omega

theorem beNat_lt (a : Bytes) : beNat a < 256 ^ a.length := by
  unfold beNat; have := leNat_lt a.reverse; simpa using this

theorem beNat_cons (b : UInt8) (t : Bytes) : beNat (b :: t) = b.toNat * 256 ^ t.length + beNat t := by
  rw [show b :: t = [b] ++ t from rfl, beNat_append]; simp [beNat, leNat]

theorem beNat_zeros (n : Nat) (a : Bytes) : beNat (List.replicate n 0 ++ a) = beNat a := by
  induction n with
  | zero => rfl
  | succ n ih => rw [List.replicate_succ, List.cons_append, beNat_cons, ih]; simp

theorem skipZeros_ok : ∀ (n : Nat) (d : Bytes), n ≤ d.length →
    ∃ m d', skipZeros n d = .ok (m, d') ∧ m ≤ n ∧ d = List.replicate (n - m) 0 ++ d' ∧ (m = 0 ∨ ∃ b t, d' = b :: t ∧ b ≠ 0)
  | 0, d, _ => ⟨0, d, rfl, Nat.le_refl _, rfl, .inl rfl⟩
  | n + 1, [], h => by simp at h
  | n + 1, b :: d, h => by
    unfold skipZeros
    by_cases hb : b = 0
    · subst hb
      obtain ⟨m, d', e, h1, h2, h3⟩ := skipZeros_ok n d (by simp at h; omega)
      refine ⟨m, d', by simpa using e, by omega, ?_, h3⟩
      rw [show n + 1 - m = (n - m) + 1 by omega, List.replicate_succ, List.cons_append, ← h2]
    · refine ⟨n + 1, b :: d, by simp [hb], Nat.le_refl _, by simp, .inr ⟨b, d, rfl, hb⟩⟩

theorem readLength_ok : ∀ (n len : Nat) (d : Bytes), n ≤ d.length → (len + 1) * 256 ^ n ≤ 2 ^ 64 →
    readLength n len d = .ok (len * 256 ^ n + beNat (d.take n), d.drop n)
  | 0, len, d, _, _ => by simp [readLength, beNat, leNat]
  | n + 1, len, [], h, _ => by simp at h
  | n + 1, len, b :: d, h, h2 => by
    have hb := b.toNat_lt
    have hp : 0 < 256 ^ n := Nat.pow_pos (by decide)
    have h3 : (len * 256 + b.toNat + 1) * 256 ^ n ≤ 2 ^ 64 := by
      refine Nat.le_trans ?_ h2
      rw [Nat.pow_succ, show (len + 1) * (256 ^ n * 256) = ((len + 1) * 256) * 256 ^ n by rw [Nat.mul_comm (256 ^ n), Nat.mul_assoc]]
      exact Nat.mul_le_mul_right _ (by omega)
    have h4 : len * 256 + b.toNat < 2 ^ 64 := by
      have : (len * 256 + b.toNat + 1) * 1 ≤ (len * 256 + b.toNat + 1) * 256 ^ n := Nat.mul_le_mul_left _ hp
      omega
    unfold readLength
    rw [Nat.mod_eq_of_lt h4, readLength_ok n _ d (by simp at h; omega) h3]
    simp only [List.take_succ_cons, List.drop_succ_cons, beNat_cons, List.length_take]
    rw [Nat.min_eq_left (by simp at h; omega)]
    congr 2
    rw [Nat.add_mul, Nat.pow_succ, Nat.mul_assoc, Nat.mul_comm 256]
    omega

theorem take_zeros {d dz : Bytes} {n m : Nat} (hd : d = List.replicate (n - m) 0 ++ dz) (h : m ≤ n) :
    d.take n = List.replicate (n - m) 0 ++ dz.take m := by
  subst hd
  rw [List.take_append, List.take_of_length_le (by simp), List.length_replicate]
  congr 2; omega

theorem drop_zeros {d dz : Bytes} {n m : Nat} (hd : d = List.replicate (n - m) 0 ++ dz) (h : m ≤ n) :
    d.drop n = dz.drop m := by
  subst hd
  rw [List.drop_append, List.drop_of_length_le (by simp), List.length_replicate, List.nil_append]
  congr 1; omega

/-- The interpreted length bytes. -/
theorem length_step (l : UInt8) (d : Bytes) :
    (if l &&& 0x80 != 0 then
        if l.toNat - 0x80 > d.length then (.no : R (Nat × Bytes))
        else R.bind (skipZeros (l.toNat - 0x80) d) fun x => R.bind (refuseIf (decide (x.1 ≥ 8))) fun _ => readLength x.1 0 x.2
      else .ok (l.toNat, d)) ≠ .ub ∧
    ∀ n d', (if l &&& 0x80 != 0 then
        if l.toNat - 0x80 > d.length then (.no : R (Nat × Bytes))
        else R.bind (skipZeros (l.toNat - 0x80) d) fun x => R.bind (refuseIf (decide (x.1 ≥ 8))) fun _ => readLength x.1 0 x.2
      else .ok (l.toNat, d)) = .ok (n, d') ↔ ∃ k, Length (l :: k) n ∧ d = k ++ d' := by
  by_cases hl : l < 0x80
  · have e : l &&& 0x80 = 0 := (high_iff l).2 hl
    rw [e]
    simp only [bne_self_eq_false, Bool.false_eq_true, if_false]
    refine ⟨by simp, fun n d' => ?_⟩
    constructor
    · intro h; cases h; exact ⟨[], .inl ⟨l, hl, rfl, rfl⟩, rfl⟩
    · rintro ⟨k, (⟨b, _, h1, h2⟩ | ⟨b, k', hb, _, h1, _⟩), rfl⟩
      · cases h1; rw [h2]; rfl
      · cases h1; exact absurd hl (UInt8.not_lt.2 hb)
  · have hl' : 0x80 ≤ l := UInt8.not_lt.1 hl
    have e : (l &&& 0x80 != 0) = true := by rw [bne_iff_ne]; exact (high_iff' l).2 hl'
    rw [e]
    simp only [if_true]
    by_cases hk : l.toNat - 0x80 > d.length
    · rw [if_pos hk]
      refine ⟨by simp, fun n d' => ⟨(fun h => nomatch h), ?_⟩⟩
      rintro ⟨k, (⟨b, hb, h1, _⟩ | ⟨b, k', _, hlen, h1, _⟩), rfl⟩
      · cases h1; exact absurd hb hl
      · cases h1; simp at hk; omega
    · rw [if_neg hk]
      obtain ⟨m, dz, hz, hm, hd, hnz⟩ := skipZeros_ok (l.toNat - 0x80) d (by omega)
      have hlen : m ≤ dz.length := by
        have := congrArg List.length hd; simp at this; omega
      rw [hz, ok_bind]
      have hkk : d.take (l.toNat - 0x80) = List.replicate (l.toNat - 0x80 - m) 0 ++ dz.take m := by
        exact take_zeros hd (by omega)
      have hdd : d.drop (l.toNat - 0x80) = dz.drop m := by
        exact drop_zeros hd (by omega)
      by_cases h8 : m ≥ 8
      · simp only [h8, decide_true]
        refine ⟨by simp [refuseIf, R.bind], fun n d' => ⟨fun h => by simp [refuseIf, R.bind] at h, ?_⟩⟩
        rintro ⟨k, (⟨b, hb, h1, _⟩ | ⟨b, k', _, hlen2, h1, h2, h3⟩), h4⟩
        · cases h1; exact absurd hb hl
        · exfalso
          cases h1
          have hk' : k = d.take (l.toNat - 0x80) := by rw [h4, ← hlen2]; simp
          rw [hk', hkk, beNat_zeros] at h2
          rcases hnz with h0 | ⟨b, t, rfl, hb⟩
          · omega
          · obtain ⟨m', rfl⟩ : ∃ m', m = m' + 1 := ⟨m - 1, by omega⟩
            simp only [List.take_succ_cons, beNat_cons, List.length_take] at h2
            rw [Nat.min_eq_left (by simp at hlen; omega)] at h2
            have h5 : 1 ≤ b.toNat := by
              rcases Nat.eq_zero_or_pos b.toNat with h0 | h0
              · exact absurd (UInt8.toNat_inj.1 (by simpa using h0)) hb
              · exact h0
            have h6 : 256 ^ 7 ≤ 256 ^ m' := Nat.pow_le_pow_right (by decide) (by omega)
            have h7 : 1 * 256 ^ m' ≤ b.toNat * 256 ^ m' := Nat.mul_le_mul_right _ h5
            omega
      · simp only [h8, decide_false]
        have hp : (0 + 1) * 256 ^ m ≤ 2 ^ 64 := by
          have : 256 ^ m ≤ 256 ^ 7 := Nat.pow_le_pow_right (by decide) (by omega)
          omega
        rw [show (refuseIf false) = .ok () from rfl, ok_bind, readLength_ok m 0 dz hlen hp]
        refine ⟨by simp, fun n d' => ?_⟩
        have hv : beNat (d.take (l.toNat - 0x80)) = beNat (dz.take m) := by rw [hkk, beNat_zeros]
        have hlt : beNat (dz.take m) < 256 ^ 7 := by
          refine Nat.lt_of_lt_of_le (beNat_lt _) (Nat.pow_le_pow_right (by decide) ?_)
          simp; omega
        constructor
        · intro h
          simp only [R.ok.injEq, Prod.mk.injEq, Nat.zero_mul, Nat.zero_add] at h
          refine ⟨d.take (l.toNat - 0x80), .inr ⟨l, _, hl', by simp; omega, rfl, ?_, ?_⟩, ?_⟩
          · rw [hv]; exact h.1
          · rw [← h.1]; exact hlt
          · rw [← h.2, ← hdd, List.take_append_drop]
        · rintro ⟨k, (⟨b, hb, h1, _⟩ | ⟨b, k', _, hlen2, h1, h2, h3⟩), h4⟩
          · cases h1; exact absurd hb hl
          · cases h1
            have hk' : k = d.take (l.toNat - 0x80) := by rw [h4, ← hlen2]; simp
            have hdd' : d' = d.drop (l.toNat - 0x80) := by rw [h4, ← hlen2]; simp
            rw [hk', hv] at h2
            rw [hdd', hdd, ← h2]
            simp

theorem laxInteger_spec (d : Bytes) : laxInteger d ≠ .ub ∧
    ∀ v d', laxInteger d = .ok (v, d') ↔ ∃ l, Length l v.length ∧ d = [0x02] ++ l ++ v ++ d' := by
  unfold laxInteger
  have hne : ∀ {l n}, Length l n → l ≠ [] := by
    rintro l n (⟨b, _, rfl, _⟩ | ⟨b, k, _, _, rfl, _⟩) h <;> cases h
  match d with
  | [] =>
    refine ⟨by simp, fun v d' => ⟨(fun h => nomatch h), ?_⟩⟩
    rintro ⟨l, -, h⟩; simp at h
  | t :: d =>
    by_cases ht : t = 0x02
    · subst ht
      simp only [bne_self_eq_false, Bool.false_eq_true, if_false]
      match d with
      | [] =>
        refine ⟨by simp, fun v d' => ⟨(fun h => nomatch h), ?_⟩⟩
        rintro ⟨l, hl, h⟩
        simp at h
        exact absurd h.1 (hne hl)
      | l :: d =>
        obtain ⟨s1, s2⟩ := length_step l d
        simp only [bind_def, pure_def]
        constructor
        · intro h
          generalize hX : (if l &&& 0x80 != 0 then
            if l.toNat - 0x80 > d.length then (.no : R (Nat × Bytes))
            else R.bind (skipZeros (l.toNat - 0x80) d) fun x => R.bind (refuseIf (decide (x.1 ≥ 8))) fun _ => readLength x.1 0 x.2
            else .ok (l.toNat, d)) = X at s1 s2 h
          cases X with
          | ub => exact s1 rfl
          | no => cases h
          | ok a =>
            obtain ⟨n, d2⟩ := a
            simp only [ok_bind] at h
            cases hc : decide (n > d2.length) <;> rw [hc] at h <;> simp [refuseIf, R.bind] at h
        · intro v d'
          generalize hX : (if l &&& 0x80 != 0 then
            if l.toNat - 0x80 > d.length then (.no : R (Nat × Bytes))
            else R.bind (skipZeros (l.toNat - 0x80) d) fun x => R.bind (refuseIf (decide (x.1 ≥ 8))) fun _ => readLength x.1 0 x.2
            else .ok (l.toNat, d)) = X at s1 s2 ⊢
          constructor
          · intro h
            cases X with
            | ub => exact absurd rfl s1
            | no => cases h
            | ok a =>
              obtain ⟨n, d2⟩ := a
              simp only [ok_bind, refuse_ok, decide_eq_false_iff_not, R.ok.injEq, Prod.mk.injEq] at h
              obtain ⟨h1, rfl, rfl⟩ := h
              obtain ⟨k, hk, rfl⟩ := (s2 n d2).1 rfl
              refine ⟨l :: k, ?_, ?_⟩
              · rw [List.length_take, Nat.min_eq_left (by omega)]; exact hk
              · simp
          · rintro ⟨l', hl', h⟩
            rcases l' with _ | ⟨l0, k⟩
            · exact absurd rfl (hne hl')
            · simp at h
              obtain ⟨rfl, h⟩ := h
              rw [(s2 v.length (v ++ d')).2 ⟨k, hl', h⟩]
              have : ¬ v.length + d'.length < v.length := by omega
              simp [ok_bind, refuseIf, this]
    · have ht' : (t != 0x02) = true := by simpa using ht
      simp only [ht', if_true]
      refine ⟨by simp, fun v d' => ⟨(fun h => nomatch h), ?_⟩⟩
      rintro ⟨l, -, h⟩
      simp at h
      exact absurd h.1 ht

theorem laxSequence_spec (d : Bytes) : laxSequence d ≠ .ub ∧
    ∀ d', laxSequence d = .ok d' ↔ ∃ l, AnyLength l ∧ d = [0x30] ++ l ++ d' := by
  have hne : ∀ {l}, AnyLength l → l ≠ [] := by
    rintro l (⟨b, _, rfl⟩ | ⟨b, k, _, _, rfl⟩) h <;> cases h
  unfold laxSequence
  match d with
  | [] =>
    refine ⟨by simp, fun d' => ⟨(fun h => nomatch h), ?_⟩⟩
    rintro ⟨l, -, h⟩; simp at h
  | t :: d =>
    by_cases ht : t = 0x30
    · subst ht
      simp only [bne_self_eq_false, Bool.false_eq_true, if_false]
      match d with
      | [] =>
        refine ⟨by simp, fun d' => ⟨(fun h => nomatch h), ?_⟩⟩
        rintro ⟨l, hl, h⟩
        simp at h
        exact absurd h.1 (hne hl)
      | l :: d =>
        by_cases hl : l < 0x80
        · have e : l &&& 0x80 = 0 := (high_iff l).2 hl
          simp only [e, bne_self_eq_false, Bool.false_eq_true, if_false]
          refine ⟨by simp, fun d' => ?_⟩
          constructor
          · intro h; cases h; exact ⟨[l], .inl ⟨l, hl, rfl⟩, rfl⟩
          · rintro ⟨l', (⟨b, _, rfl⟩ | ⟨b, k, hb, _, rfl⟩), h⟩
            · simp at h; rw [h.2]
            · simp at h; obtain ⟨rfl, -⟩ := h; exact absurd hl (UInt8.not_lt.2 hb)
        · have hl' : 0x80 ≤ l := UInt8.not_lt.1 hl
          have e : (l &&& 0x80 != 0) = true := by rw [bne_iff_ne]; exact (high_iff' l).2 hl'
          simp only [e, if_true]
          by_cases hk : l.toNat - 0x80 > d.length
          · rw [if_pos hk]
            refine ⟨by simp, fun d' => ⟨(fun h => nomatch h), ?_⟩⟩
            rintro ⟨l', (⟨b, hb, rfl⟩ | ⟨b, k, _, hlen, rfl⟩), h⟩
            · simp at h; obtain ⟨rfl, -⟩ := h; exact absurd hb hl
            · simp at h; obtain ⟨rfl, rfl⟩ := h; simp at hk; omega
          · rw [if_neg hk]
            refine ⟨by simp, fun d' => ?_⟩
            constructor
            · intro h
              have h := R.ok.inj h
              rw [← h]
              refine ⟨l :: d.take (l.toNat - 0x80), .inr ⟨l, _, hl', List.length_take_of_le (Nat.le_of_not_lt hk), rfl⟩, ?_⟩
              show (48 : UInt8) :: l :: d = 48 :: l :: (d.take (l.toNat - 0x80) ++ d.drop (l.toNat - 0x80))
              rw [List.take_append_drop]
            · rintro ⟨l', (⟨b, hb, rfl⟩ | ⟨b, k, _, hlen, rfl⟩), h⟩
              · simp at h; obtain ⟨rfl, -⟩ := h; exact absurd hb hl
              · simp at h; obtain ⟨rfl, rfl⟩ := h; rw [← hlen]; simp
    · have ht' : (t != 0x30) = true := by simpa using ht
      simp only [ht', if_true]
      refine ⟨by simp, fun d' => ⟨(fun h => nomatch h), ?_⟩⟩
      rintro ⟨l, -, h⟩
      simp at h
      exact absurd h.1 ht

/-- The signature two DER integers denote: the numbers, or zero for both if one is not below the order of the curve. -/
def signatureOf (r s : Bytes) : Nat × Nat := if beNat r < order ∧ beNat s < order then (beNat r, beNat s) else (0, 0)

theorem scalar_spec (b : Bytes) : (∃ n, scalar b = some n ∧ n = beNat b) ∨ (scalar b = none ∧ order ≤ beNat b) := by
  have e : ∀ b : Bytes, beNat (b.dropWhile (· == 0)) = beNat b := by
    intro b
    induction b with
    | nil => rfl
    | cons x t ih =>
      rw [List.dropWhile_cons]
      by_cases hx : x = 0
      · subst hx; simp only [beq_self_eq_true, if_true]; rw [ih, beNat_cons]; simp
      · simp [hx]
  unfold scalar value
  by_cases h : (b.dropWhile (· == 0)).length > 32
  · right
    simp only [h, if_true]
    refine ⟨trivial, ?_⟩
    rw [← e]
    generalize hq : b.dropWhile (· == 0) = q at h
    cases q with
    | nil => simp at h
    | cons x t =>
      have hx : x ≠ 0 := by
        intro hx
        have := List.head?_dropWhile_not (p := (· == (0:UInt8))) b
        rw [hq] at this; simp [hx] at this
      have h5 : 1 ≤ x.toNat := by
        rcases Nat.eq_zero_or_pos x.toNat with h0 | h0
        · exact absurd (UInt8.toNat_inj.1 (by simpa using h0)) hx
        · exact h0
      rw [beNat_cons]
      have h6 : 256 ^ 32 ≤ 256 ^ t.length := Nat.pow_le_pow_right (by decide) (by simp at h; omega)
      have h7 : 1 * 256 ^ t.length ≤ x.toNat * 256 ^ t.length := Nat.mul_le_mul_right _ h5
      have h8 : order ≤ 256 ^ 32 := by decide
      omega
  · left
    simp only [h, if_false]
    exact ⟨_, rfl, e b⟩

/-- The lax parser never reads outside of the buffer. -/
theorem C28_lax_total (sig : Bytes) : parseLax sig ≠ .ub := by
  unfold parseLax
  simp only [bind_def, pure_def]
  cases h1 : laxSequence sig with
  | ub => exact absurd h1 (laxSequence_spec sig).1
  | no => simp [R.bind]
  | ok d =>
    simp only [ok_bind]
    cases h2 : laxInteger d with
    | ub => exact absurd h2 (laxInteger_spec d).1
    | no => simp [R.bind]
    | ok a =>
      obtain ⟨r, d2⟩ := a
      simp only [ok_bind]
      cases h3 : laxInteger d2 with
      | ub => exact absurd h3 (laxInteger_spec d2).1
      | no => simp [R.bind]
      | ok a =>
        obtain ⟨s, d3⟩ := a
        simp only [ok_bind]
        cases scalar r <;> cases scalar s <;> simp

/-- The lax parser accepts exactly the lax form, and returns the numbers in it. -/
theorem C28_lax (sig : Bytes) (v : Nat × Nat) : parseLax sig = .ok v ↔ ∃ r s, Lax sig r s ∧ v = signatureOf r s := by
  have hsig : ∀ r s : Bytes, (match scalar r, scalar s with
      | some r, some s => R.ok (if r < order ∧ s < order then (r, s) else (0, 0))
      | _, _ => R.ok (0, 0)) = R.ok (signatureOf r s) := by
    intro r s
    unfold signatureOf
    rcases scalar_spec r with ⟨n, h, rfl⟩ | ⟨h, hr⟩ <;> rcases scalar_spec s with ⟨m, h', rfl⟩ | ⟨h', hs⟩ <;> rw [h, h'] <;> simp <;> omega
  unfold parseLax
  simp only [bind_def, pure_def]
  constructor
  · intro h
    cases h1 : laxSequence sig with
    | ub => rw [h1] at h; cases h
    | no => rw [h1] at h; cases h
    | ok d =>
      rw [h1] at h
      simp only [ok_bind] at h
      cases h2 : laxInteger d with
      | ub => rw [h2] at h; cases h
      | no => rw [h2] at h; cases h
      | ok a =>
        obtain ⟨r, d2⟩ := a
        rw [h2] at h
        simp only [ok_bind] at h
        cases h3 : laxInteger d2 with
        | ub => rw [h3] at h; cases h
        | no => rw [h3] at h; cases h
        | ok a =>
          obtain ⟨s, d3⟩ := a
          rw [h3] at h
          simp only [ok_bind] at h
          have h := (hsig r s).symm.trans h
          obtain ⟨l, hl, rfl⟩ := ((laxSequence_spec sig).2 d).1 h1
          obtain ⟨lr, hlr, rfl⟩ := ((laxInteger_spec d).2 r d2).1 h2
          obtain ⟨ls, hls, rfl⟩ := ((laxInteger_spec d2).2 s d3).1 h3
          exact ⟨r, s, ⟨l, lr, ls, d3, hl, hlr, hls, by simp⟩, by cases h; rfl⟩
  · rintro ⟨r, s, ⟨l, lr, ls, tail, hl, hlr, hls, rfl⟩, rfl⟩
    have e3 := ((laxInteger_spec ([0x02] ++ ls ++ s ++ tail)).2 s tail).2 ⟨ls, hls, rfl⟩
    have e2 := ((laxInteger_spec ([0x02] ++ lr ++ r ++ ([0x02] ++ ls ++ s ++ tail))).2 r _).2 ⟨lr, hlr, rfl⟩
    have e1 := ((laxSequence_spec ([0x30] ++ l ++ ([0x02] ++ lr ++ r ++ ([0x02] ++ ls ++ s ++ tail)))).2 _).2 ⟨l, hl, rfl⟩
    have e : [0x30] ++ l ++ [0x02] ++ lr ++ r ++ [0x02] ++ ls ++ s ++ tail = [0x30] ++ l ++ ([0x02] ++ lr ++ r ++ ([0x02] ++ ls ++ s ++ tail)) := by
      simp
    rw [e, e1]; simp only [ok_bind]
    rw [e2]; simp only [ok_bind]
    rw [e3]; simp only [ok_bind]
    exact hsig r s

/-! ## decoding and encoding -/

theorem length_short {n : Nat} (h : n < 0x80) : Length [UInt8.ofNat n] n := by
  refine .inl ⟨UInt8.ofNat n, ?_, rfl, ?_⟩
  · rw [UInt8.lt_iff_toNat_lt, UInt8.toNat_ofNat_of_lt' (by simp [UInt8.size]; omega)]; exact h
  · rw [UInt8.toNat_ofNat_of_lt' (by simp [UInt8.size]; omega)]

/-- A strict signature is a lax one, with the same integers. -/
theorem strict_lax {sig r s : Bytes} (h : Strict sig r s) : Lax sig r s := by
  obtain ⟨-, -, hl, rfl⟩ := h
  simp only [List.length_append, List.length_cons, List.length_nil] at hl
  refine ⟨[UInt8.ofNat (r.length + s.length + 4)], [UInt8.ofNat r.length], [UInt8.ofNat s.length], [], .inl ⟨_, ?_, rfl⟩,
    length_short (by omega), length_short (by omega), by simp⟩
  rw [UInt8.lt_iff_toNat_lt, UInt8.toNat_ofNat_of_lt' (by simp [UInt8.size]; omega)]
  show _ < 128
  omega

/-- Decoding: never undefined; with the strict rule exactly the BIP66 encodings are accepted, otherwise exactly the lax ones,
and the result is the pair of numbers encoded. -/
theorem C28_decode (sig : Bytes) (strict : Bool) : decodeSignature sig strict ≠ .ub ∧
    ∀ v, decodeSignature sig strict = .ok v ↔ ∃ r s, (if strict = true then Strict sig r s else Lax sig r s) ∧ v = signatureOf r s := by
  have hne : ∀ r s, Lax sig r s → (sig.length == 0) = false := by
    rintro r s ⟨_, _, _, _, -, -, -, rfl⟩; simp
  unfold decodeSignature
  cases strict with
  | false =>
    simp only [bind_def, pure_def, Bool.false_eq_true, if_false, refuse_ub, refuse_ok, ok_bind]
    refine ⟨fun _ => C28_lax_total sig, fun v => ?_⟩
    rw [C28_lax]
    exact ⟨fun h => h.2, fun h => ⟨by obtain ⟨r, s, h, -⟩ := h; exact hne r s h, h⟩⟩
  | true =>
    simp only [bind_def, if_true, refuse_ub, refuse_ok]
    constructor
    · intro _
      cases h : bip66 sig with
      | ub => exact absurd h (C28_strict_total sig)
      | no => simp [R.bind]
      | ok u => exact C28_lax_total sig
    · intro v
      constructor
      · rintro ⟨-, h⟩
        cases hb : bip66 sig with
        | ub => rw [hb] at h; cases h
        | no => rw [hb] at h; cases h
        | ok u =>
          rw [hb, ok_bind] at h
          obtain ⟨r, s, hs⟩ := (C28_strict sig).1 hb
          have h2 := (C28_lax sig _).2 ⟨r, s, strict_lax hs, rfl⟩
          rw [h2] at h
          exact ⟨r, s, hs, (R.ok.inj h).symm⟩
      · rintro ⟨r, s, hs, rfl⟩
        refine ⟨hne r s (strict_lax hs), ?_⟩
        rw [(C28_strict sig).2 ⟨r, s, hs⟩, ok_bind]
        exact (C28_lax sig _).2 ⟨r, s, strict_lax hs, rfl⟩

theorem beNat_beBytes {n v : Nat} (h : v < 256 ^ n) : beNat (beBytes n v) = v := by
  unfold beNat beBytes; rw [List.reverse_reverse]; exact leNat_leBytes_of_lt h

/-- Two byte strings of one length with one value are equal. -/
theorem beNat_inj {a b : Bytes} (hl : a.length = b.length) (h : beNat a = beNat b) : a = b := by
  have := leNat_inj (a := a.reverse) (b := b.reverse) (by simpa using hl) h
  exact List.reverse_inj.1 this

/-- A minimal integer is the encoding of its value. -/
theorem minimal_eq {v : Bytes} (h : MinimalInteger v) : v = encodeInteger (beNat v) := by
  obtain ⟨b, t, rfl, hb, hz⟩ := h
  have hbn : b.toNat < 128 := by rw [UInt8.lt_iff_toNat_lt] at hb; exact hb
  have core : ∀ (x : UInt8) (u : Bytes), 0 < x.toNat → (Nat.log2 (beNat (x :: u)) / 8 + 1) = (x :: u).length ∧ beNat (x :: u) ≠ 0 := by
    intro x u hx
    have h1 : beNat (x :: u) < 256 ^ (x :: u).length := beNat_lt _
    have h2 : 256 ^ u.length ≤ beNat (x :: u) := by
      rw [beNat_cons]
      have : 1 * 256 ^ u.length ≤ x.toNat * 256 ^ u.length := Nat.mul_le_mul_right _ hx
      omega
    have hp : 0 < 256 ^ u.length := Nat.pow_pos (by decide)
    have h0 : beNat (x :: u) ≠ 0 := by omega
    refine ⟨?_, h0⟩
    have e : ∀ k, 256 ^ k = 2 ^ (8 * k) := fun k => by rw [Nat.pow_mul]
    rw [e] at h1 h2
    have l1 : Nat.log2 (beNat (x :: u)) < 8 * (x :: u).length := (Nat.log2_lt h0).2 h1
    have l2 : 8 * u.length ≤ Nat.log2 (beNat (x :: u)) := (Nat.le_log2 h0).2 h2
    simp only [List.length_cons] at l1 ⊢
    omega
  have bytes : ∀ (x : UInt8) (u : Bytes), 0 < x.toNat →
      (if beNat (x :: u) = 0 then [0] else beBytes (Nat.log2 (beNat (x :: u)) / 8 + 1) (beNat (x :: u))) = x :: u := by
    intro x u hx
    obtain ⟨h1, h2⟩ := core x u hx
    rw [if_neg h2, h1]
    exact beNat_inj (by simp) (beNat_beBytes (beNat_lt _))
  unfold encodeInteger
  by_cases h0 : b = 0
  · subst h0
    rw [show beNat (0 :: t) = beNat t by rw [beNat_cons]; simp]
    cases t with
    | nil => rfl
    | cons c u =>
      have hc := hz rfl c u rfl
      have hcn : 128 ≤ c.toNat := by rw [UInt8.le_iff_toNat_le] at hc; exact hc
      simp only [bytes c u (by omega), List.headD_cons]
      rw [if_pos hc]
  · have hpos : 0 < b.toNat := by
      rcases Nat.eq_zero_or_pos b.toNat with h | h
      · exact absurd (UInt8.toNat_inj.1 (by simpa using h)) h0
      · exact h
    simp only [bytes b t hpos, List.headD_cons]
    rw [if_neg (UInt8.not_le.2 hb)]

theorem encodeInteger_spec (n : Nat) : MinimalInteger (encodeInteger n) ∧ beNat (encodeInteger n) = n ∧
    ∀ k, n < 256 ^ k → (encodeInteger n).length ≤ k + 1 := by
  unfold encodeInteger
  by_cases h0 : n = 0
  · subst h0
    simp only [if_true, List.headD_cons]
    rw [if_neg (by decide)]
    exact ⟨(minimal_one 0).2 (by decide), by decide, fun k _ => by simp⟩
  · have e : ∀ k, 256 ^ k = 2 ^ (8 * k) := fun k => by rw [Nat.pow_mul]
    simp only [h0, if_false]
    generalize hw : Nat.log2 n / 8 = w
    have hlt : n < 256 ^ (w + 1) := by
      rw [e]; exact (Nat.log2_lt h0).1 (by omega)
    have hge : 256 ^ w ≤ n := by
      rw [e]; exact (Nat.le_log2 h0).1 (by omega)
    have hval : beNat (beBytes (w + 1) n) = n := beNat_beBytes hlt
    obtain ⟨x, u, hxu⟩ := exists_cons (l := beBytes (w + 1) n) (by simp)
    have hul : u.length = w := by have := congrArg List.length hxu; simp at this; omega
    rw [hxu] at hval ⊢
    have hx0 : x ≠ 0 := by
      rintro rfl
      rw [beNat_cons] at hval
      have := beNat_lt u
      rw [hul] at this
      simp at hval
      omega
    have hlen : ∀ k, n < 256 ^ k → w + 1 ≤ k := by
      intro k hk
      have : 256 ^ w < 256 ^ k := Nat.lt_of_le_of_lt hge hk
      exact (Nat.pow_lt_pow_iff_right (by decide)).1 this
    by_cases hx : 0x80 ≤ (x :: u).headD 0
    · rw [if_pos hx]
      have hx : 0x80 ≤ x := hx
      refine ⟨(minimal_two _ _ _).2 ⟨by decide, fun _ => hx⟩, by rw [beNat_cons, hval]; simp, fun k hk => ?_⟩
      have := hlen k hk
      simp only [List.length_cons]; omega
    · rw [if_neg hx]
      have hx : ¬ 0x80 ≤ x := hx
      refine ⟨⟨x, u, rfl, UInt8.not_le.1 hx, fun h => absurd h hx0⟩, hval, fun k hk => ?_⟩
      have := hlen k hk
      simp only [List.length_cons]; omega

/-- Every signature has a strict encoding, decoded (strictly or not) to the same signature. -/
theorem C28_encode (r s : Nat) (hr : r < order) (hs : s < order) (strict : Bool) : decodeSignature (encode r s) strict = .ok (r, s) := by
  have h256 : order ≤ 256 ^ 32 := by decide
  obtain ⟨mr, vr, lr⟩ := encodeInteger_spec r
  obtain ⟨ms, vs, ls⟩ := encodeInteger_spec s
  have l1 := lr 32 (by omega)
  have l2 := ls 32 (by omega)
  have hS : Strict (encode r s) (encodeInteger r) (encodeInteger s) := by
    refine ⟨mr, ms, ?_, rfl⟩
    unfold encode
    simp only [List.length_append, List.length_cons, List.length_nil]
    omega
  refine ((C28_decode _ strict).2 _).2 ⟨encodeInteger r, encodeInteger s, ?_, ?_⟩
  · cases strict
    · exact strict_lax hS
    · exact hS
  · unfold signatureOf
    rw [vr, vs, if_pos ⟨hr, hs⟩]

/-- Strict encodings are not malleable: one signature below the order has only one strict encoding. -/
theorem C28_unique (sig : Bytes) (r s : Nat) (h : decodeSignature sig true = .ok (r, s)) (hr : r ≠ 0) : sig = encode r s := by
  obtain ⟨a, b, hS, hv⟩ := ((C28_decode sig true).2 _).1 h
  have hS : Strict sig a b := hS
  unfold signatureOf at hv
  split at hv
  · cases hv
    obtain ⟨ma, mb, -, e⟩ := hS
    rw [e]
    unfold encode
    rw [← minimal_eq ma, ← minimal_eq mb]
  · cases hv; exact absurd rfl hr

/-- Non-vacuity: a signature, its strict encoding, and a lax but not strict variant of it (padded R, trailing byte). -/
example : decodeSignature [0x30, 6, 2, 1, 5, 2, 1, 7] true = .ok (5, 7) ∧ decodeSignature [0x30, 7, 2, 2, 0, 5, 2, 1, 7] true = .no ∧
    decodeSignature [0x30, 0x81, 9, 2, 0x82, 0, 2, 0, 5, 2, 1, 7, 99] false = .ok (5, 7) ∧ encode 5 0x80 = [0x30, 7, 2, 1, 5, 2, 2, 0, 0x80] := by
  decide +kernel

end Verif.Der
