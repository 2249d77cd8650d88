import Verif.Spec.Radix
import Verif.Props.Der
/-!
# C31 base16, C32 base58, C33 base64 and base85
-/
namespace Verif.Radix
open Verif Verif.Radix.Spec

theorem forall_byte {p : UInt8 → Prop} (h : ∀ n < 256, p (UInt8.ofNat n)) (b : UInt8) : p b := Der.byte_forall h b

/-! ## base16 -/

theorem hex_byte (b : UInt8) : isBase16 (toHexHi b) = true ∧ isBase16 (toHexLo b) = true ∧ fromHex (toHexHi b) (toHexLo b) = b :=
  forall_byte (p := fun b => isBase16 (toHexHi b) = true ∧ isBase16 (toHexLo b) = true ∧ fromHex (toHexHi b) (toHexLo b) = b) (by decide +kernel) b

theorem isBase16_iff (c : UInt8) : isBase16 c = true ↔ c ∈ hexChars :=
  forall_byte (p := fun c => isBase16 c = true ↔ c ∈ hexChars) (by decide +kernel) c

theorem hex_chars_aux : ∀ a ∈ hexChars, ∀ b ∈ hexChars, toHexHi (fromHex a b) = lower a ∧ toHexLo (fromHex a b) = lower b := by decide +kernel

theorem hex_chars {a b : UInt8} (ha : isBase16 a = true) (hb : isBase16 b = true) :
    toHexHi (fromHex a b) = lower a ∧ toHexLo (fromHex a b) = lower b :=
  hex_chars_aux a ((isBase16_iff a).1 ha) b ((isBase16_iff b).1 hb)

theorem encode16_length (d : Bytes) : (encode16 d).length = 2 * d.length := by
  induction d with
  | nil => rfl
  | cons b d ih => simp only [encode16, List.flatMap_cons, List.length_append, List.length_cons, List.length_nil] at ih ⊢; omega

theorem encode16_all (d : Bytes) : (encode16 d).all isBase16 = true := by
  induction d with
  | nil => rfl
  | cons b d ih =>
    rw [show encode16 (b :: d) = toHexHi b :: toHexLo b :: encode16 d from rfl]
    simp [(hex_byte b).1, (hex_byte b).2.1, ih]

theorem pairs_encode16 (d : Bytes) : pairs (encode16 d) = d := by
  induction d with
  | nil => rfl
  | cons b d ih =>
    rw [show encode16 (b :: d) = toHexHi b :: toHexLo b :: encode16 d from rfl, pairs, ih, (hex_byte b).2.2]

theorem encode16_pairs : ∀ s : Bytes, s.length % 2 = 0 → s.all isBase16 = true → encode16 (pairs s) = s.map lower
  | [], _, _ => rfl
  | [_], h, _ => by simp at h
  | a :: b :: s, h, hs => by
    simp only [List.all_cons, Bool.and_eq_true] at hs
    obtain ⟨h1, h2⟩ := hex_chars hs.1 hs.2.1
    have ih := encode16_pairs s (by simp at h; omega) hs.2.2
    rw [pairs, show encode16 (fromHex a b :: pairs s) = toHexHi (fromHex a b) :: toHexLo (fromHex a b) :: encode16 (pairs s) from rfl, h1, h2, ih]
    rfl

/-- Base16: decoding an encoding gives the data. -/
theorem C31_decode_encode (d : Bytes) : decode16 (encode16 d) = some d := by
  unfold decode16
  rw [if_neg (by rw [encode16_length]; omega), encode16_all, pairs_encode16]
  rfl

/-- Base16: exactly the strings of even length of hexadecimal characters are accepted. -/
theorem C31_accepts (s : Bytes) : (decode16 s).isSome = true ↔ s.length % 2 = 0 ∧ ∀ c ∈ s, c ∈ hexChars := by
  unfold decode16
  have hall : s.all isBase16 = true ↔ ∀ c ∈ s, c ∈ hexChars := by
    rw [List.all_eq_true]
    exact forall_congr' fun c => imp_congr_right fun _ => isBase16_iff c
  rw [← hall]
  by_cases h : s.length % 2 = 0
  · cases s.all isBase16 <;> simp [h]
  · simp [h]

/-- Base16: an accepted string encodes again to itself in lower case. -/
theorem C31_encode_decode (s d : Bytes) (h : decode16 s = some d) : encode16 d = s.map lower := by
  unfold decode16 at h
  split at h
  · simp at h
  · split at h
    · simp at h
    · rename_i h1 h2
      cases h
      exact encode16_pairs s (by simpa using h1) (by simpa using h2)

theorem isProduct_eq (l n : Nat) : isProduct l 2 n = decide (l = n * 2) := by
  unfold isProduct
  by_cases h : n = 0
  · subst h; simp; cases l <;> simp
  · simp only [h, beq_iff_eq, Bool.or_false, show ((2 : Nat) == 0) = false from rfl, show (n == 0) = false by simpa using h]
    rw [if_neg (by simp), Bool.eq_iff_iff]
    simp only [Bool.and_eq_true, beq_iff_eq, decide_eq_true_eq]
    omega

theorem pairs_length : ∀ s : Bytes, s.length % 2 = 0 → (pairs s).length = s.length / 2 := by
  intro s
  induction s using pairs.induct with
  | case1 hi lo l ih => intro h; simp [pairs] at h ⊢; rw [ih (by omega)]; omega
  | case2 t h =>
    intro h2
    match t, h, h2 with
    | [], _, _ => rfl
    | [a], _, h2 => simp at h2
    | a :: b :: l, h, _ => exact absurd rfl (h a b l)

/-- Decoding to an array of fixed size is decoding, with that size. -/
theorem C31_array (n : Nat) (s : Bytes) : decode16Array n s = (decode16 s).filter fun d => d.length = n := by
  unfold decode16Array decode16
  rw [isProduct_eq]
  by_cases h : s.length % 2 = 0
  · have := pairs_length s h
    by_cases h2 : s.length = n * 2
    · cases s.all isBase16 <;> simp [h2, Option.filter]
      rw [this]; omega
    · cases s.all isBase16 <;> simp [h, h2, Option.filter]
      rw [this]; omega
  · simp [h, show s.length ≠ n * 2 by omega, Option.filter]

theorem pairsRev_eq : ∀ s : Bytes, s.length % 2 = 0 → pairsRev s.reverse = (pairs s).reverse := by
  have happ : ∀ (a b : Bytes), a.length % 2 = 0 → pairsRev (a ++ b) = pairsRev a ++ pairsRev b := by
    intro a
    induction a using pairsRev.induct with
    | case1 lo hi l ih => intro b h; simp only [List.cons_append, pairsRev, List.cons.injEq, true_and]; exact ih b (by simp at h; omega)
    | case2 t h =>
      intro b h2
      match t, h, h2 with
      | [], _, _ => rfl
      | [a], _, h2 => simp at h2
      | a :: b :: l, h, _ => exact absurd rfl (h a b l)
  intro s
  induction s using pairs.induct with
  | case1 hi lo l ih =>
    intro h
    simp only [List.length_cons] at h
    rw [pairs, List.reverse_cons, List.reverse_cons, List.reverse_cons, List.append_assoc, happ _ _ (by simp; omega), ih (by omega)]
    rfl
  | case2 t h =>
    intro h2
    match t, h, h2 with
    | [], _, _ => rfl
    | [a], _, h2 => simp at h2
    | a :: b :: l, h, _ => exact absurd rfl (h a b l)

/-- Hashes are encoded reversed: decoding an encoded hash gives the hash, and decoding is that of base16, reversed. -/
theorem C31_hash (d s : Bytes) (n : Nat) : decodeHash d.length (encodeHash d) = some d ∧
    decodeHash n s = (decode16Array n s).map List.reverse := by
  have h2 : ∀ (n : Nat) (s : Bytes), decodeHash n s = (decode16Array n s).map List.reverse := by
    intro n s
    unfold decodeHash decode16Array
    rw [isProduct_eq]
    by_cases h : s.length = n * 2
    · cases s.all isBase16 <;> simp [h, pairsRev_eq s (by omega)]
    · simp [h]
  refine ⟨?_, h2 n s⟩
  rw [h2, C31_array, show encodeHash d = encode16 d.reverse from rfl, C31_decode_encode]
  simp [Option.filter]

/-- Non-vacuity: mixed case is accepted, other strings are not. -/
example : decode16 (ascii "00fFaB") = some [0, 0xff, 0xab] ∧ encode16 [0, 0xff, 0xab] = ascii "00ffab" ∧
    decode16 (ascii "00f") = none ∧ decode16 (ascii "0g") = none ∧ decodeHash 2 (ascii "0102") = some [2, 1] := by decide +kernel

/-! ## positional numbers -/

/-- The number of digits, least significant first. -/
def leVal (b : Nat) : List Nat → Nat
  | [] => 0
  | x :: l => x + b * leVal b l

theorem beVal_append (b : Nat) (l m : List Nat) : beVal b (l ++ m) = beVal b l * b ^ m.length + beVal b m := by
  have gen : ∀ (m : List Nat) (v : Nat), m.foldl (fun v x => v * b + x) v = v * b ^ m.length + m.foldl (fun v x => v * b + x) 0 := by
    intro m
    induction m with
    | nil => simp
    | cons x m ih =>
      intro v
      rw [List.foldl_cons, List.foldl_cons, ih, ih (0 * b + x), List.length_cons, Nat.pow_succ]
      rw [Nat.add_mul, Nat.zero_mul, Nat.zero_add, Nat.add_assoc, Nat.mul_assoc, Nat.mul_comm b]
  unfold beVal
  rw [List.foldl_append, gen]

theorem beVal_cons (b x : Nat) (l : List Nat) : beVal b (x :: l) = x * b ^ l.length + beVal b l := by
  rw [show x :: l = [x] ++ l from rfl, beVal_append]; simp [beVal]

theorem beVal_reverse (b : Nat) (l : List Nat) : beVal b l.reverse = leVal b l := by
  induction l with
  | nil => rfl
  | cons x l ih =>
    rw [List.reverse_cons, beVal_append, ih]
    simp [beVal, leVal]
    rw [Nat.mul_comm, Nat.add_comm]

theorem leVal_reverse (b : Nat) (l : List Nat) : leVal b l.reverse = beVal b l := by
  rw [← beVal_reverse, List.reverse_reverse]

theorem leVal_lt {b : Nat} : ∀ {l : List Nat}, (∀ x ∈ l, x < b) → leVal b l < b ^ l.length
  | [], _ => by simp [leVal]
  | x :: l, h => by
    have h1 := h x (by simp)
    have h2 := leVal_lt (l := l) (fun y hy => h y (by simp [hy]))
    rw [leVal, List.length_cons, Nat.pow_succ]
    calc x + b * leVal b l < b + b * leVal b l := by omega
      _ = b * (leVal b l + 1) := by rw [Nat.mul_add, Nat.mul_one, Nat.add_comm]
      _ ≤ b * b ^ l.length := Nat.mul_le_mul_left _ h2
      _ = _ := Nat.mul_comm _ _

theorem beVal_lt {b : Nat} {l : List Nat} (h : ∀ x ∈ l, x < b) : beVal b l < b ^ l.length := by
  rw [← leVal_reverse]
  have := leVal_lt (b := b) (l := l.reverse) (by simpa using h)
  simpa using this

/-- Digits without leading zeros are determined by their number. -/
theorem leVal_unique {b : Nat} : ∀ {l m : List Nat}, (∀ x ∈ l, x < b) → (∀ x ∈ m, x < b) → l.getLast? ≠ some 0 → m.getLast? ≠ some 0 →
    leVal b l = leVal b m → l = m := by
  have zero : ∀ l : List Nat, (∀ x ∈ l, x < b) → l.getLast? ≠ some 0 → leVal b l = 0 → l = [] := by
    intro l
    induction l with
    | nil => intros; rfl
    | cons x l ih =>
      intro h hl hv
      rw [leVal] at hv
      have hb : 0 < b := by have := h x (by simp); omega
      have h1 : x = 0 := by omega
      have h2 : leVal b l = 0 := by
        have : b * leVal b l = 0 := by omega
        rcases Nat.mul_eq_zero.1 this with h | h
        · omega
        · exact h
      have hl0 : l = [] := by
        cases l with
        | nil => rfl
        | cons y l =>
          refine ih (fun z hz => h z (by simp [hz])) ?_ h2
          rw [List.getLast?_cons_cons] at hl; exact hl
      subst hl0; subst h1
      simp at hl
  intro l
  induction l with
  | nil =>
    intro m _ hm _ hm0 h
    exact (zero m hm hm0 h.symm).symm
  | cons x l ih =>
    intro m hl hm hl0 hm0 h
    cases m with
    | nil => exact zero _ hl hl0 h
    | cons y m =>
      rw [leVal, leVal] at h
      have hx := hl x (by simp)
      have hy := hm y (by simp)
      have e1 : x = y := by
        have := congrArg (· % b) h
        simpa [Nat.add_mul_mod_self_left, Nat.mod_eq_of_lt hx, Nat.mod_eq_of_lt hy] using this
      have e2 : leVal b l = leVal b m := by
        have : b * leVal b l = b * leVal b m := by omega
        exact Nat.eq_of_mul_eq_mul_left (by omega) this
      have tl : ∀ (z : Nat) (n : List Nat), (z :: n).getLast? ≠ some 0 → n.getLast? ≠ some 0 := by
        intro z n hn
        cases n with
        | nil => simp
        | cons w n => rwa [List.getLast?_cons_cons] at hn
      rw [e1, ih (fun z hz => hl z (by simp [hz])) (fun z hz => hm z (by simp [hz])) (tl _ _ hl0) (tl _ _ hm0) e2]

theorem beVal_unique {b : Nat} {l m : List Nat} (hl : ∀ x ∈ l, x < b) (hm : ∀ x ∈ m, x < b) (hl0 : l.head? ≠ some 0) (hm0 : m.head? ≠ some 0)
    (h : beVal b l = beVal b m) : l = m := by
  have := leVal_unique (b := b) (l := l.reverse) (m := m.reverse) (by simpa using hl) (by simpa using hm) (by simpa using hl0) (by simpa using hm0)
    (by rw [leVal_reverse, leVal_reverse, h])
  simpa using congrArg List.reverse this

/-! ## base58 -/

theorem mulAdd_length (m b : Nat) : ∀ (l : List Nat) (c : Nat), (mulAdd m b l c).length = l.length
  | [], _ => rfl
  | x :: l, c => by simp [mulAdd, mulAdd_length m b l]

theorem mulAdd_lt {m b : Nat} (hb : 0 < b) : ∀ (l : List Nat) (c : Nat), ∀ x ∈ mulAdd m b l c, x < b
  | [], _ => by simp [mulAdd]
  | y :: l, c => by
    intro x hx
    simp only [mulAdd, List.mem_cons] at hx
    rcases hx with rfl | hx
    · exact Nat.mod_lt _ hb
    · exact mulAdd_lt hb l _ x hx

theorem mulAdd_val (m b : Nat) : ∀ (l : List Nat) (c : Nat), leVal b (mulAdd m b l c) = (m * leVal b l + c) % b ^ l.length
  | [], c => by simp [mulAdd, leVal, Nat.mod_one]
  | x :: l, c => by
    rw [mulAdd, leVal, mulAdd_val m b l, leVal, List.length_cons, Nat.pow_succ, Nat.mul_comm (b ^ l.length) b, Nat.mod_mul]
    have e : m * (x + b * leVal b l) + c = (c + m * x) + b * (m * leVal b l) := by
      rw [Nat.mul_add, Nat.mul_left_comm]; omega
    rw [e, Nat.add_mul_mod_self_left]
    by_cases hb : b = 0
    · subst hb; simp
    · rw [Nat.add_mul_div_left _ _ (by omega), Nat.add_comm (m * leVal b l)]

/-- Multiplying in the digits of a number in one base gives its digits in the other, if there is room. -/
theorem convert {m b k : Nat} (hb : 0 < b) (ds : List Nat) (h : beVal m ds < b ^ k) :
    let out := ds.foldl (fun ix c => (mulAdd m b ix.reverse c).reverse) (List.replicate k 0)
    out.length = k ∧ (∀ x ∈ out, x < b) ∧ beVal b out = beVal m ds := by
  have key : ∀ (ds pre ix : List Nat), ix.length = k → (∀ x ∈ ix, x < b) → beVal b ix = beVal m pre % b ^ k →
      let out := ds.foldl (fun ix c => (mulAdd m b ix.reverse c).reverse) ix
      out.length = k ∧ (∀ x ∈ out, x < b) ∧ beVal b out = beVal m (pre ++ ds) % b ^ k := by
    intro ds
    induction ds with
    | nil => intro pre ix h1 h2 h3; exact ⟨h1, h2, by rw [List.append_nil]; exact h3⟩
    | cons c ds ih =>
      intro pre ix h1 h2 h3
      have := ih (pre ++ [c]) ((mulAdd m b ix.reverse c).reverse) (by simp [mulAdd_length, h1]) (by intro x hx; exact mulAdd_lt hb _ _ x (by simpa using hx)) ?_
      · simpa using this
      · rw [beVal_reverse, mulAdd_val, leVal_reverse, h3, List.length_reverse, h1, beVal_append]
        simp only [beVal, List.foldl_cons, List.foldl_nil, List.length_singleton, Nat.pow_one, Nat.zero_mul, Nat.zero_add]
        rw [Nat.add_mod, Nat.mul_mod, Nat.mod_mod, ← Nat.mul_mod, ← Nat.add_mod, Nat.mul_comm]
  have hz : beVal b (List.replicate k 0) = 0 := by
    have : ∀ k, beVal b (List.replicate k 0) = 0 := by
      intro k
      induction k with
      | zero => rfl
      | succ k ih => rw [List.replicate_succ, beVal_cons, ih]; simp
    exact this k
  have := key ds [] (List.replicate k 0) (by simp) (by intro x hx; rw [List.eq_of_mem_replicate hx]; exact hb) (by rw [hz]; simp [beVal])
  rw [List.nil_append, Nat.mod_eq_of_lt h] at this
  exact this

theorem fromNonzero_spec (b : Nat) (l : List Nat) : beVal b (fromNonzero l) = beVal b l ∧ (fromNonzero l).head? ≠ some 0 ∧ ∀ x ∈ fromNonzero l, x ∈ l := by
  induction l with
  | nil => exact ⟨rfl, by simp [fromNonzero], by simp [fromNonzero]⟩
  | cons x l ih =>
    unfold fromNonzero at *
    rw [List.dropWhile_cons]
    by_cases h : x = 0
    · subst h
      simp only [beq_self_eq_true, if_true]
      refine ⟨by rw [ih.1, beVal_cons]; simp, ih.2.1, fun y hy => by simp [ih.2.2 y hy]⟩
    · have : (x == 0) = false := by simpa using h
      simp only [this]
      exact ⟨rfl, by simpa using h, fun _ h => h⟩

theorem cap58 (n : Nat) : 256 ^ n ≤ 58 ^ (n * 138 / 100 + 1) := by
  have h : (256 ^ n) ^ 100 ≤ (58 ^ (n * 138 / 100 + 1)) ^ 100 := by
    rw [← Nat.pow_mul, ← Nat.pow_mul, Nat.mul_comm n 100, Nat.pow_mul]
    calc (256 ^ 100) ^ n ≤ (58 ^ 138) ^ n := Nat.pow_le_pow_left (by decide +kernel) n
      _ = 58 ^ (138 * n) := by rw [Nat.pow_mul]
      _ ≤ _ := Nat.pow_le_pow_right (by decide) (by omega)
  exact (Nat.pow_le_pow_iff_left (by decide)).1 h

theorem cap256 (n : Nat) : 58 ^ n ≤ 256 ^ (n * 733 / 1000 + 1) := by
  have h : (58 ^ n) ^ 1000 ≤ (256 ^ (n * 733 / 1000 + 1)) ^ 1000 := by
    rw [← Nat.pow_mul, ← Nat.pow_mul, Nat.mul_comm n 1000, Nat.pow_mul]
    calc (58 ^ 1000) ^ n ≤ (256 ^ 733) ^ n := Nat.pow_le_pow_left (by decide +kernel) n
      _ = 256 ^ (733 * n) := by rw [Nat.pow_mul]
      _ ≤ _ := Nat.pow_le_pow_right (by decide) (by omega)
  exact (Nat.pow_le_pow_iff_left (by decide)).1 h

/-- The characters and their digits. -/
theorem char58 : ∀ i < 58, findChar base58Chars (base58Chars.getD i 0) = some i ∧ (base58Chars.getD i 0 = 49 ↔ i = 0) ∧
    base58Chars.getD i 0 ∈ base58Chars ∧ digit58 (base58Chars.getD i 0) = i := by decide +kernel

theorem find58_aux (c : UInt8) : (c ∈ base58Chars → findChar base58Chars c = some (digit58 c) ∧ digit58 c < 58 ∧ base58Chars.getD (digit58 c) 0 = c) ∧
    (c ∉ base58Chars → findChar base58Chars c = none) :=
  forall_byte (p := fun c => (c ∈ base58Chars → findChar base58Chars c = some (digit58 c) ∧ digit58 c < 58 ∧ base58Chars.getD (digit58 c) 0 = c) ∧
    (c ∉ base58Chars → findChar base58Chars c = none)) (by decide +kernel) c

theorem unpackLoop_eq : ∀ (s : Bytes) (data : List Nat), unpackLoop s data =
    if ∀ c ∈ s, c ∈ base58Chars then some ((s.map digit58).foldl (fun ix c => (mulAdd 58 256 ix.reverse c).reverse) data) else none
  | [], data => by simp [unpackLoop]
  | c :: s, data => by
    rw [unpackLoop]
    by_cases h : c ∈ base58Chars
    · rw [((find58_aux c).1 h).1]
      simp only [unpackLoop_eq s, List.mem_cons, forall_eq_or_imp, h, true_and, List.map_cons, List.foldl_cons]
      rfl
    · rw [(find58_aux c).2 h]
      simp [h]

/-- Splitting off a run at the start. -/
theorem run_split {α} [BEq α] [LawfulBEq α] (a : α) (l : List α) : ∃ n r, l = List.replicate n a ++ r ∧ r.head? ≠ some a ∧
    (l.takeWhile (· == a)).length = n := by
  induction l with
  | nil => exact ⟨0, [], by simp⟩
  | cons x l ih =>
    by_cases h : x = a
    · subst h
      obtain ⟨n, r, h1, h2, h3⟩ := ih
      exact ⟨n + 1, r, by rw [h1]; simp [List.replicate_succ], h2, by simp [h3]⟩
    · refine ⟨0, x :: l, by simp, by simpa using h, ?_⟩
      have : (x == a) = false := by simpa using h
      simp [this]

theorem run_length {α} [BEq α] [LawfulBEq α] (a : α) (n : Nat) (r : List α) (h : r.head? ≠ some a) :
    ((List.replicate n a ++ r).takeWhile (· == a)).length = n := by
  induction n with
  | zero =>
    cases r with
    | nil => simp
    | cons x r =>
      have : (x == a) = false := by simpa using h
      simp [this]
  | succ n ih => rw [List.replicate_succ, List.cons_append, List.takeWhile_cons]; simp only [beq_self_eq_true, if_true, List.length_cons, ih]

theorem beVal_zeros (b n : Nat) (l : List Nat) : beVal b (List.replicate n 0 ++ l) = beVal b l := by
  induction n with
  | zero => simp
  | succ n ih => rw [List.replicate_succ, List.cons_append, beVal_cons, ih]; simp

theorem toNat_lt_all (d : Bytes) : ∀ x ∈ d.map UInt8.toNat, x < 256 := by
  intro x hx
  obtain ⟨b, -, rfl⟩ := List.mem_map.1 hx
  exact b.toNat_lt

theorem map_ofNat_toNat {l : List Nat} (h : ∀ x ∈ l, x < 256) : (l.map UInt8.ofNat).map UInt8.toNat = l := by
  rw [List.map_map]
  conv => rhs; rw [← List.map_id l]
  apply List.map_congr_left
  intro x hx
  simp only [Function.comp, UInt8.toNat_ofNat', id]
  exact Nat.mod_eq_of_lt (h x hx)

theorem map_toNat_ofNat (d : Bytes) : (d.map UInt8.toNat).map UInt8.ofNat = d := by
  rw [List.map_map]
  conv => rhs; rw [← List.map_id d]
  apply List.map_congr_left
  intro x _
  simp

theorem head_map_toNat {d : Bytes} (h : d.head? ≠ some 0) : (d.map UInt8.toNat).head? ≠ some 0 := by
  cases d with
  | nil => simp
  | cons b d =>
    simp only [List.map_cons, List.head?_cons, ne_eq, Option.some.injEq] at *
    intro e; exact h (UInt8.toNat_inj.1 (by simpa using e))

/-- Encoding: zeros to '1's, then the base58 digits of the rest. -/
theorem encode58_eq (n : Nat) (r : Bytes) (hr : r.head? ≠ some 0) : ∃ ds : List Nat, encode58 (List.replicate n 0 ++ r) =
    List.replicate n 49 ++ ds.map (fun i => base58Chars.getD i 0) ∧ (∀ x ∈ ds, x < 58) ∧ ds.head? ≠ some 0 ∧
    beVal 58 ds = beVal 256 (r.map UInt8.toNat) := by
  unfold encode58 leadingZeros
  simp only [run_length (0 : UInt8) n r hr]
  have hfold : ∀ (l : Bytes) (ix : List Nat), l.foldl (fun ix b => packValue ix b.toNat) ix =
      (l.map UInt8.toNat).foldl (fun ix c => (mulAdd 256 58 ix.reverse c).reverse) ix := by
    intro l
    induction l with
    | nil => intro; rfl
    | cons b l ih => intro ix; exact ih _
  rw [show (List.replicate n (0 : UInt8) ++ r).drop n = r by simp, show (List.replicate n (0 : UInt8) ++ r).length - n = r.length by simp, hfold]
  have hlt : beVal 256 (r.map UInt8.toNat) < 58 ^ (r.length * 138 / 100 + 1) := by
    have := beVal_lt (b := 256) (toNat_lt_all r)
    rw [List.length_map] at this
    exact Nat.lt_of_lt_of_le this (cap58 _)
  obtain ⟨-, c2, c3⟩ := convert (m := 256) (b := 58) (by decide) _ hlt
  obtain ⟨f1, f2, f3⟩ := fromNonzero_spec 58 ((r.map UInt8.toNat).foldl (fun ix c => (mulAdd 256 58 ix.reverse c).reverse) (List.replicate (r.length * 138 / 100 + 1) 0))
  exact ⟨_, rfl, fun x hx => c2 x (f3 x hx), f2, by rw [f1, c3]⟩

/-- Decoding: '1's to zeros, then the bytes of the rest. -/
theorem decode58_eq (n : Nat) (r : Bytes) (hr : r.head? ≠ some 49) (hc : ∀ c ∈ r, c ∈ base58Chars) : ∃ ds : List Nat,
    decode58 (List.replicate n 49 ++ r) = some (List.replicate n 0 ++ ds.map UInt8.ofNat) ∧ (∀ x ∈ ds, x < 256) ∧ ds.head? ≠ some 0 ∧
    beVal 256 ds = beVal 58 (r.map digit58) := by
  unfold decode58 leadingOnes
  simp only [run_length (49 : UInt8) n r hr]
  rw [show (List.replicate n (49 : UInt8) ++ r).drop n = r by simp, unpackLoop_eq, if_pos hc]
  have hd : ∀ x ∈ r.map digit58, x < 58 := by
    intro x hx
    obtain ⟨c, hcr, rfl⟩ := List.mem_map.1 hx
    exact ((find58_aux c).1 (hc c hcr)).2.1
  have hlt : beVal 58 (r.map digit58) < 256 ^ ((List.replicate n (49 : UInt8) ++ r).length * 733 / 1000 + 1) := by
    have := beVal_lt (b := 58) hd
    rw [List.length_map] at this
    refine Nat.lt_of_lt_of_le this (Nat.le_trans (cap256 _) (Nat.pow_le_pow_right (by decide) ?_))
    simp; omega
  obtain ⟨-, c2, c3⟩ := convert (m := 58) (b := 256) (by decide) _ hlt
  obtain ⟨f1, f2, f3⟩ := fromNonzero_spec 256 ((r.map digit58).foldl (fun ix c => (mulAdd 58 256 ix.reverse c).reverse) (List.replicate ((List.replicate n (49 : UInt8) ++ r).length * 733 / 1000 + 1) 0))
  exact ⟨_, rfl, fun x hx => c2 x (f3 x hx), f2, by rw [f1, c3]⟩

theorem digits_chars {ds : List Nat} (h : ∀ x ∈ ds, x < 58) : (ds.map fun i => base58Chars.getD i 0).map digit58 = ds := by
  rw [List.map_map]
  conv => rhs; rw [← List.map_id ds]
  apply List.map_congr_left
  intro x hx
  exact (char58 x (h x hx)).2.2.2

theorem chars_digits {r : Bytes} (h : ∀ c ∈ r, c ∈ base58Chars) : (r.map digit58).map (fun i => base58Chars.getD i 0) = r := by
  rw [List.map_map]
  conv => rhs; rw [← List.map_id r]
  apply List.map_congr_left
  intro c hc
  exact ((find58_aux c).1 (h c hc)).2.2

theorem chars_head {ds : List Nat} (h : ∀ x ∈ ds, x < 58) (h0 : ds.head? ≠ some 0) : (ds.map fun i => base58Chars.getD i 0).head? ≠ some 49 := by
  cases ds with
  | nil => simp
  | cons x ds =>
    simp only [List.map_cons, List.head?_cons, ne_eq, Option.some.injEq] at *
    intro e; exact h0 ((char58 x (h x (by simp))).2.1.1 e)

theorem digits_head {r : Bytes} (h : ∀ c ∈ r, c ∈ base58Chars) (h0 : r.head? ≠ some 49) : (r.map digit58).head? ≠ some 0 := by
  cases r with
  | nil => simp
  | cons c r =>
    simp only [List.map_cons, List.head?_cons, ne_eq, Option.some.injEq] at *
    intro e
    have := ((find58_aux c).1 (h c (by simp))).2.2
    rw [e] at this
    exact h0 (this.symm.trans (by decide +kernel))

/-- Base58: decoding an encoding gives the data. -/
theorem C32_decode_encode (d : Bytes) : decode58 (encode58 d) = some d := by
  obtain ⟨n, r, rfl, hr, -⟩ := run_split (0 : UInt8) d
  obtain ⟨ds, e, h1, h2, h3⟩ := encode58_eq n r hr
  rw [e]
  obtain ⟨es, e2, g1, g2, g3⟩ := decode58_eq n _ (chars_head h1 h2) (by
    intro c hc
    obtain ⟨i, hi, rfl⟩ := List.mem_map.1 hc
    exact (char58 i (h1 i hi)).2.2.1)
  rw [e2]
  rw [digits_chars h1, h3] at g3
  rw [beVal_unique g1 (toNat_lt_all r) g2 (head_map_toNat hr) g3, map_toNat_ofNat]

/-- Base58: exactly the strings of alphabet characters are accepted. -/
theorem C32_accepts (s : Bytes) : (decode58 s).isSome = true ↔ ∀ c ∈ s, c ∈ base58Chars := by
  obtain ⟨n, r, rfl, hr, -⟩ := run_split (49 : UInt8) s
  have h49 : (49 : UInt8) ∈ base58Chars := by decide +kernel
  have hall : (∀ c ∈ List.replicate n 49 ++ r, c ∈ base58Chars) ↔ ∀ c ∈ r, c ∈ base58Chars := by
    constructor
    · intro h c hc; exact h c (by simp [hc])
    · intro h c hc
      rcases List.mem_append.1 hc with hc | hc
      · rw [List.eq_of_mem_replicate hc]; exact h49
      · exact h c hc
  rw [hall]
  constructor
  · intro h
    unfold decode58 leadingOnes at h
    simp only [run_length (49 : UInt8) n r hr] at h
    rw [show (List.replicate n (49 : UInt8) ++ r).drop n = r by simp, unpackLoop_eq] at h
    split at h
    · assumption
    · simp at h
  · intro h
    obtain ⟨ds, e, -⟩ := decode58_eq n r hr h
    rw [e]; rfl

/-- Base58: every accepted string is the encoding of what it decodes to. -/
theorem C32_encode_decode (s d : Bytes) (h : decode58 s = some d) : encode58 d = s := by
  have hc := (C32_accepts s).1 (by rw [h]; rfl)
  obtain ⟨n, r, rfl, hr, -⟩ := run_split (49 : UInt8) s
  have hc : ∀ c ∈ r, c ∈ base58Chars := fun c h => hc c (by simp [h])
  obtain ⟨ds, e, h1, h2, h3⟩ := decode58_eq n r hr hc
  rw [e] at h
  cases h
  have hd : (ds.map UInt8.ofNat).head? ≠ some 0 := by
    cases ds with
    | nil => simp
    | cons x ds =>
      simp only [List.map_cons, List.head?_cons, ne_eq, Option.some.injEq] at *
      intro e
      have := congrArg UInt8.toNat e
      rw [UInt8.toNat_ofNat', Nat.mod_eq_of_lt (h1 x (by simp))] at this
      exact h2 this
  obtain ⟨es, e2, g1, g2, g3⟩ := encode58_eq n _ hd
  rw [e2]
  rw [map_ofNat_toNat h1, h3] at g3
  have hlt : ∀ x ∈ r.map digit58, x < 58 := by
    intro x hx
    obtain ⟨c, hcr, rfl⟩ := List.mem_map.1 hx
    exact ((find58_aux c).1 (hc c hcr)).2.1
  rw [beVal_unique g1 hlt g2 (digits_head hc hr) g3, chars_digits hc]

/-- Base58: what a string decodes to is what it means: leading ones are leading zeros, and the numbers are equal. -/
theorem C32_meaning (s d : Bytes) (hs : ∀ c ∈ s, c ∈ base58Chars) : decode58 s = some d ↔ Means58 s d := by
  have fwd : ∀ s d : Bytes, decode58 s = some d → Means58 s d := by
    intro s d h
    have hc := (C32_accepts s).1 (by rw [h]; rfl)
    obtain ⟨n, r, rfl, hr, -⟩ := run_split (49 : UInt8) s
    have hc : ∀ c ∈ r, c ∈ base58Chars := fun c h => hc c (by simp [h])
    obtain ⟨ds, e, h1, h2, h3⟩ := decode58_eq n r hr hc
    rw [e] at h
    cases h
    have hd : (ds.map UInt8.ofNat).head? ≠ some 0 := by
      cases ds with
      | nil => simp
      | cons x ds =>
        simp only [List.map_cons, List.head?_cons, ne_eq, Option.some.injEq] at *
        intro e
        have := congrArg UInt8.toNat e
        rw [UInt8.toNat_ofNat', Nat.mod_eq_of_lt (h1 x (by simp))] at this
        exact h2 this
    refine ⟨?_, ?_⟩
    · unfold leadingOnes leadingZeros; rw [run_length (49 : UInt8) n r hr, run_length (0 : UInt8) n _ hd]
    · rw [List.map_append, List.map_append, List.map_replicate, List.map_replicate, map_ofNat_toNat h1,
        show digit58 49 = 0 by decide +kernel, show (0 : UInt8).toNat = 0 from rfl, beVal_zeros, beVal_zeros, h3]
  refine ⟨fwd s d, ?_⟩
  rintro ⟨h1, h2⟩
  obtain ⟨d', hd'⟩ := Option.isSome_iff_exists.1 ((C32_accepts s).2 hs)
  obtain ⟨g1, g2⟩ := fwd s d' hd'
  rw [hd']
  congr 1
  rw [h1] at g1
  rw [h2] at g2
  obtain ⟨n, r, rfl, hr, -⟩ := run_split (0 : UInt8) d
  obtain ⟨n', r', rfl, hr', -⟩ := run_split (0 : UInt8) d'
  unfold leadingZeros at g1
  rw [run_length (0 : UInt8) n _ hr, run_length (0 : UInt8) n' _ hr'] at g1
  subst g1
  rw [List.map_append, List.map_append, List.map_replicate, show (0 : UInt8).toNat = 0 from rfl, beVal_zeros, beVal_zeros] at g2
  have := beVal_unique (toNat_lt_all r) (toNat_lt_all r') (head_map_toNat hr) (head_map_toNat hr') g2
  rw [← map_toNat_ofNat r, ← map_toNat_ofNat r', this]

/-- Non-vacuity: a version and zeros are kept; a character outside of the alphabet is refused. -/
example : encode58 [0, 0, 1, 2] = ascii "115T" ∧ decode58 (ascii "115T") = some [0, 0, 1, 2] ∧ decode58 (ascii "0") = none := by decide +kernel

/-! ## base64 -/

theorem char64 : ∀ i < 64, digit64 (base64Chars.getD i 0) = some i ∧ base64Chars.getD i 0 ∈ base64Chars := by decide +kernel

theorem char64' (i : Nat) : digit64 (base64Chars.getD (i % 64) 0) = some (i % 64) := (char64 _ (Nat.mod_lt _ (by decide))).1

theorem ofNat_eq {n : Nat} {b : UInt8} (h : n % 256 = b.toNat) : UInt8.ofNat n = b := by
  apply UInt8.toNat_inj.1
  rw [UInt8.toNat_ofNat']
  exact h

theorem loop64_encode : ∀ (d : Bytes) (value : Nat) (decoded : Bytes), loop64 (encode64 d) 0 value decoded = some (decoded ++ d)
  | a :: b :: c :: l, value, decoded => by
    have ha := a.toNat_lt
    have hb := b.toNat_lt
    have hc := c.toNat_lt
    rw [encode64]
    simp only [List.cons_append, List.nil_append, loop64, char64']
    rw [if_neg (by decide), if_neg (by decide), if_neg (by decide), if_pos trivial, loop64_encode l]
    rw [List.append_assoc]
    congr 2
    simp only [List.cons_append, List.nil_append]
    rw [ofNat_eq (b := a), ofNat_eq (b := b), ofNat_eq (b := c)] <;> omega
  | [a, b], value, decoded => by
    have ha := a.toNat_lt
    have hb := b.toNat_lt
    rw [encode64]
    simp only [loop64, char64']
    rw [if_neg (by decide), if_neg (by decide), if_neg (by decide)]
    simp only [show digit64 61 = none by decide +kernel, List.length_nil, if_true]
    rw [ofNat_eq (b := a), ofNat_eq (b := b)] <;> omega
  | [a], value, decoded => by
    have ha := a.toNat_lt
    rw [encode64]
    simp only [loop64, char64']
    rw [if_neg (by decide), if_neg (by decide)]
    simp only [show digit64 61 = none by decide +kernel, List.length_cons, List.length_nil, if_true]
    rw [if_neg (by decide), ofNat_eq (b := a)]
    omega
  | [], _, decoded => by simp [encode64, loop64]

theorem encode64_length : ∀ d : Bytes, (encode64 d).length = (d.length + 2) / 3 * 4
  | a :: b :: c :: l => by rw [encode64]; simp [encode64_length l]; omega
  | [_, _] => by simp [encode64]
  | [_] => by simp [encode64]
  | [] => by simp [encode64]

/-- Base64: decoding an encoding gives the data. -/
theorem C33_base64 (d : Bytes) : decode64 (encode64 d) = some d := by
  unfold decode64
  rw [if_neg (by rw [encode64_length]; omega), loop64_encode]
  rfl

theorem hm64 (i : Nat) : base64Chars.getD (i % 64) 0 ∈ base64Chars := (char64 _ (Nat.mod_lt _ (by decide))).2

theorem encode64_chars : ∀ (d : Bytes), ∀ c ∈ encode64 d, c ∈ base64Chars ∨ c = 61
  | a :: b :: c :: l, x, hx => by
    rw [encode64] at hx
    simp only [List.cons_append, List.nil_append, List.mem_cons] at hx
    rcases hx with rfl | rfl | rfl | rfl | hx
    · exact .inl (hm64 _)
    · exact .inl (hm64 _)
    · exact .inl (hm64 _)
    · exact .inl (hm64 _)
    · exact encode64_chars l x hx
  | [a, b], x, hx => by
    rw [encode64] at hx
    simp only [List.mem_cons, List.not_mem_nil, or_false] at hx
    rcases hx with rfl | rfl | rfl | rfl
    · exact .inl (hm64 _)
    · exact .inl (hm64 _)
    · exact .inl (hm64 _)
    · exact .inr rfl
  | [a], x, hx => by
    rw [encode64] at hx
    simp only [List.mem_cons, List.not_mem_nil, or_false] at hx
    rcases hx with rfl | rfl | rfl | rfl
    · exact .inl (hm64 _)
    · exact .inl (hm64 _)
    · exact .inr rfl
    · exact .inr rfl
  | [], x, hx => by simp [encode64] at hx

/-- Base64: only the alphabet and the pad are used, four characters for every three bytes begun. -/
theorem C33_base64_text (d : Bytes) : (encode64 d).length = (d.length + 2) / 3 * 4 ∧ ∀ c ∈ encode64 d, c ∈ base64Chars ∨ c = 61 := by
  exact ⟨encode64_length d, encode64_chars d⟩

/-- Base64: decoding is not strict: texts that are no encoding are accepted. -/
theorem C33_base64_lax : ∃ s d, decode64 s = some d ∧ encode64 d ≠ s ∧ ∃ c ∈ s, c ∉ base64Chars ∧ c ≠ 61 :=
  ⟨ascii "QQ=!", ascii "A", by decide +kernel, by decide +kernel, 33, by decide +kernel, by decide +kernel, by decide⟩

/-! ## base85 -/

theorem char85 : ∀ i < 85, base85Table.getD ((base85Chars.getD i 0).toNat - 32) 0 = i ∧ ¬ (base85Chars.getD i 0 ≥ 128 ∨ base85Chars.getD i 0 < 32) ∧
    base85Chars.getD i 0 ∈ base85Chars := by decide +kernel

theorem char85' (i : Nat) : base85Table.getD ((base85Chars.getD (i % 85) 0).toNat - 32) 0 = i % 85 ∧
    ¬ (base85Chars.getD (i % 85) 0 ≥ 128 ∨ base85Chars.getD (i % 85) 0 < 32) := by
  have := char85 (i % 85) (Nat.mod_lt _ (by decide))
  exact ⟨this.1, this.2.1⟩

/-- Four bytes are encoded at a time. -/
theorem loopTo85_four (a b c d : UInt8) (l : Bytes) (i : Nat) (h : i % 4 = 0) : loopTo85 (a :: b :: c :: d :: l) 0 i =
    ([52200625, 614125, 7225, 85, 1].map fun x => base85Chars.getD ((((a.toNat * 256 + b.toNat) * 256 + c.toNat) * 256 + d.toNat) / x % 85) 0) ++
      loopTo85 l 0 (i + 4) := by
  simp only [loopTo85]
  rw [if_neg (by omega), if_neg (by omega), if_neg (by omega), if_pos (by omega)]
  simp

theorem recompose85 (v : Nat) (h : v < 2 ^ 32) :
    ((((v / 52200625 % 85) * 85 + v / 614125 % 85) * 85 + v / 7225 % 85) * 85 + v / 85 % 85) * 85 + v / 1 % 85 = v := by
  omega

theorem loopFrom85_five (v : Nat) (hv : v < 2 ^ 32) (s : Bytes) (i : Nat) (h : i % 5 = 0) :
    loopFrom85 (([52200625, 614125, 7225, 85, 1].map fun x => base85Chars.getD (v / x % 85) 0) ++ s) 0 i =
    (loopFrom85 s 0 (i + 5)).map fun l => ([16777216, 65536, 256, 1].map fun x => UInt8.ofNat (v / x % 256)) ++ l := by
  simp only [List.map_cons, List.map_nil, List.cons_append, List.nil_append, loopFrom85]
  rw [if_neg (char85' _).2, if_neg (by omega), if_neg (char85' _).2, if_neg (by omega), if_neg (char85' _).2, if_neg (by omega),
    if_neg (char85' _).2, if_neg (by omega), if_neg (char85' _).2, if_pos (by omega)]
  simp only [(char85' _).1, Nat.zero_mul, Nat.zero_add]
  rw [recompose85 v hv]

theorem round85 : ∀ (d : Bytes) (i j : Nat), d.length % 4 = 0 → i % 4 = 0 → j % 5 = 0 → loopFrom85 (loopTo85 d 0 i) 0 j = some d
  | [], _, _, _, _, _ => rfl
  | [_], _, _, h, _, _ => by simp at h
  | [_, _], _, _, h, _, _ => by simp at h
  | [_, _, _], _, _, h, _, _ => by simp at h
  | a :: b :: c :: d :: l, i, j, h, hi, hj => by
    have ha := a.toNat_lt
    have hb := b.toNat_lt
    have hc := c.toNat_lt
    have hd := d.toNat_lt
    rw [loopTo85_four a b c d l i hi, loopFrom85_five _ (by omega) _ j hj, round85 l (i + 4) (j + 5) (by simp at h; omega) (by omega) (by omega)]
    simp only [Option.map_some, List.map_cons, List.map_nil, List.cons_append, List.nil_append]
    rw [ofNat_eq (b := a), ofNat_eq (b := b), ofNat_eq (b := c), ofNat_eq (b := d)] <;> omega

theorem loopTo85_text : ∀ (d : Bytes) (i : Nat), d.length % 4 = 0 → i % 4 = 0 → (loopTo85 d 0 i).length = d.length / 4 * 5 ∧ ∀ c ∈ loopTo85 d 0 i, c ∈ base85Chars
  | [], _, _, _ => by simp [loopTo85]
  | [_], _, h, _ => by simp at h
  | [_, _], _, h, _ => by simp at h
  | [_, _, _], _, h, _ => by simp at h
  | a :: b :: c :: d :: l, i, h, hi => by
    obtain ⟨h1, h2⟩ := loopTo85_text l (i + 4) (by simp at h; omega) (by omega)
    rw [loopTo85_four a b c d l i hi]
    refine ⟨by simp [h1]; omega, ?_⟩
    intro x hx
    rcases List.mem_append.1 hx with hx | hx
    · obtain ⟨y, -, rfl⟩ := List.mem_map.1 hx
      exact (char85 _ (Nat.mod_lt _ (by decide))).2.2
    · exact h2 x hx

/-- Base85: exactly data of a size that is a multiple of four is encoded, and it decodes to itself. -/
theorem C33_base85 (d : Bytes) : (d.length % 4 = 0 → ∃ s, encode85 d = some s ∧ decode85 s = some d ∧ s.length = d.length / 4 * 5 ∧ ∀ c ∈ s, c ∈ base85Chars) ∧
    (d.length % 4 ≠ 0 → encode85 d = none) := by
  constructor
  · intro h
    obtain ⟨h1, h2⟩ := loopTo85_text d 0 h rfl
    refine ⟨loopTo85 d 0 0, by simp [encode85, h], ?_, h1, h2⟩
    unfold decode85
    rw [if_neg (by omega)]
    exact round85 d 0 0 h rfl rfl
  · intro h; simp [encode85, h]

/-- Base85: decoding is not strict: characters outside of the alphabet and numbers above 32 bits are accepted. -/
theorem C33_base85_lax : (∃ s d, decode85 s = some d ∧ ∃ c ∈ s, c ∉ base85Chars) ∧
    ∃ s t d, s ≠ t ∧ (∀ c ∈ s ++ t, c ∈ base85Chars) ∧ decode85 s = some d ∧ decode85 t = some d :=
  ⟨⟨ascii "\"0000", [0, 0, 0, 0], by decide +kernel, 34, by decide +kernel, by decide +kernel⟩,
   ascii "00000", ascii "%nSc1", [0, 0, 0, 0], by decide +kernel, by decide +kernel, by decide +kernel, by decide +kernel⟩

/-- Non-vacuity: lengths of every class. -/
example : encode64 (ascii "Ma") = ascii "TWE=" ∧ encode64 (ascii "M") = ascii "TQ==" ∧ encode64 (ascii "Man") = ascii "TWFu" ∧
    encode85 [0x86, 0x4f, 0xd2, 0x6f] = some (ascii "Hello") := by decide +kernel

end Verif.Radix
