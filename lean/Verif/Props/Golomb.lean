import Verif.Spec.Golomb
import Verif.Props.Bits
/-!
# C29: Golomb coded sets and block filters
-/
namespace Verif.Golomb
open Verif Verif.Bit Verif.Bit.Spec Verif.Golomb.Spec

/-! ## sort -/

theorem mem_insert {α} (le : α → α → Bool) (x y : α) (l : List α) : y ∈ insert le x l ↔ y = x ∨ y ∈ l := by
  induction l with
  | nil => simp [insert]
  | cons a l ih =>
    unfold insert
    split
    · simp
    · simp [ih]; constructor <;> (rintro (h | h | h) <;> simp [h])

theorem mem_sort {α} (le : α → α → Bool) (y : α) (l : List α) : y ∈ sort le l ↔ y ∈ l := by
  induction l with
  | nil => simp [sort]
  | cons a l ih =>
    rw [show sort le (a :: l) = insert le a (sort le l) from rfl, mem_insert, ih]; simp

theorem insert_perm {α} (le : α → α → Bool) (x : α) (l : List α) : (insert le x l).Perm (x :: l) := by
  induction l with
  | nil => exact .refl _
  | cons a l ih =>
    unfold insert
    split
    · exact .refl _
    · exact (ih.cons a).trans (.swap _ _ _)

theorem sort_perm {α} (le : α → α → Bool) (l : List α) : (sort le l).Perm l := by
  induction l with
  | nil => exact .refl _
  | cons a l ih => exact (insert_perm le a _).trans (ih.cons a)

theorem insert_sorted (x : Nat) (l : List Nat) (h : l.Pairwise (· ≤ ·)) : (insert (fun a b => decide (a ≤ b)) x l).Pairwise (· ≤ ·) := by
  induction l with
  | nil => simp [insert]
  | cons a l ih =>
    unfold insert
    rw [List.pairwise_cons] at h
    split
    · rename_i hx
      have hx := of_decide_eq_true hx
      refine List.pairwise_cons.2 ⟨?_, List.pairwise_cons.2 h⟩
      intro y hy
      rcases List.mem_cons.1 hy with rfl | hy
      · exact hx
      · exact Nat.le_trans hx (h.1 y hy)
    · rename_i hx
      have hx : ¬ x ≤ a := fun hh => hx (decide_eq_true hh)
      refine List.pairwise_cons.2 ⟨?_, ih h.2⟩
      intro y hy
      rcases (mem_insert _ _ _ _).1 hy with rfl | hy
      · omega
      · exact h.1 y hy

theorem sort_sorted (l : List Nat) : (sort (fun a b => decide (a ≤ b)) l).Pairwise (· ≤ ·) := by
  induction l with
  | nil => exact .nil
  | cons a l ih => exact insert_sorted a _ ih

theorem mem_unique {α} [DecidableEq α] (y : α) : ∀ l : List α, y ∈ unique l ↔ y ∈ l
  | [] => by simp [unique]
  | [x] => by simp [unique]
  | a :: b :: l => by
    unfold unique
    split
    · rename_i h; subst h; rw [mem_unique y (a :: l)]; simp
    · rw [List.mem_cons, mem_unique y (b :: l)]; simp

theorem mem_distinct (y : Bytes) (l : List Bytes) : y ∈ distinct l ↔ y ∈ l := by
  unfold distinct; rw [mem_unique, mem_sort]

/-! ## hash -/

theorem hashToRange_eq {h : Bytes → Nat} (hh : ∀ x, h x < 2 ^ 64) {x : Bytes} {n rate : Nat} (hb : rate * n < 2 ^ 64) :
    hashToRange h x (rate * n) = image h n rate x := by
  unfold hashToRange image
  rw [Nat.shiftRight_eq_div_pow]
  apply Nat.mod_eq_of_lt
  apply Nat.div_lt_of_lt_mul
  exact Nat.mul_lt_mul'' (hh x) hb

theorem image_lt {h : Bytes → Nat} (hh : ∀ x, h x < 2 ^ 64) {x : Bytes} {n rate : Nat} (hb : rate * n < 2 ^ 64) :
    image h n rate x < 2 ^ 64 := by
  apply Nat.div_lt_of_lt_mul
  exact Nat.mul_lt_mul'' (hh x) hb

theorem hashedSet_eq {h : Bytes → Nat} (hh : ∀ x, h x < 2 ^ 64) (items : List Bytes) {n rate : Nat} (hb : rate * n < 2 ^ 64) :
    hashedSet h items n rate = sort (fun a b => decide (a ≤ b)) (items.map (image h n rate)) := by
  unfold hashedSet
  rw [if_neg (by omega)]
  congr 1
  apply List.map_congr_left
  intro x _
  exact hashToRange_eq hh hb

theorem mem_hashedSet {h : Bytes → Nat} (hh : ∀ x, h x < 2 ^ 64) (items : List Bytes) {n rate : Nat} (hb : rate * n < 2 ^ 64) (y : Nat) :
    y ∈ hashedSet h items n rate ↔ ∃ x ∈ items, image h n rate x = y := by
  rw [hashedSet_eq hh items hb, mem_sort, List.mem_map]

theorem hashedSet_sorted (h : Bytes → Nat) (items : List Bytes) (n rate : Nat) : (hashedSet h items n rate).Pairwise (· ≤ ·) := by
  unfold hashedSet
  split
  · exact .nil
  · exact sort_sorted _

theorem hashedSet_length {h : Bytes → Nat} (hh : ∀ x, h x < 2 ^ 64) (items : List Bytes) {n rate : Nat} (hb : rate * n < 2 ^ 64) :
    (hashedSet h items n rate).length = items.length := by
  rw [hashedSet_eq hh items hb, (sort_perm _ _).length_eq, List.length_map]

/-! ## the code of a number -/

/-- Quotient in unary, zero, remainder. -/
def code (bits v : Nat) : List Bool := List.replicate (if bits ≥ 64 then 0 else v >>> bits) true ++ (false :: numBits (min 64 bits) v)

theorem writeOnes_spec : ∀ (n : Nat) (w : Writer), w.WF → (writeOnes n w).WF ∧ (writeOnes n w).bits = w.bits ++ List.replicate n true
  | 0, w, h => ⟨h, by simp [writeOnes]⟩
  | n + 1, w, h => by
    obtain ⟨h1, h2⟩ := writeBit_spec w h true
    obtain ⟨h3, h4⟩ := writeOnes_spec n _ h1
    refine ⟨h3, ?_⟩
    rw [show writeOnes (n + 1) w = writeOnes n (w.writeBit true) from rfl, h4, h2, List.append_assoc]; rfl

theorem encode_spec (w : Writer) (h : w.WF) (v bits : Nat) : (encode w v bits).WF ∧ (encode w v bits).bits = w.bits ++ code bits v := by
  unfold encode code
  obtain ⟨h1, h2⟩ := writeOnes_spec (if bits ≥ 64 then 0 else v >>> bits) w h
  obtain ⟨h3, h4⟩ := writeBit_spec _ h1 false
  obtain ⟨h5, h6⟩ := writeBits_spec _ h3 v bits
  exact ⟨h5, by rw [h6, h4, h2]; simp⟩

/-- The codes of the deltas. -/
def codes (bits : Nat) : Nat → List Nat → List Bool
  | _, [] => []
  | p, v :: vs => code bits (v - p) ++ codes bits v vs

theorem encodeAll_spec (bits : Nat) : ∀ (set : List Nat) (p : Nat) (w : Writer), w.WF → (p :: set).Pairwise (· ≤ ·) → (∀ v ∈ set, v < 2 ^ 64) →
    (encodeAll bits p set w).WF ∧ (encodeAll bits p set w).bits = w.bits ++ codes bits p set := by
  intro set
  induction set with
  | nil => intro p w h _ _; exact ⟨h, by simp [encodeAll, codes]⟩
  | cons v vs ih =>
    intro p w h hs hlt
    have hv := hlt v (by simp)
    have hp : p ≤ v := (List.pairwise_cons.1 hs).1 v (by simp)
    obtain ⟨h1, h2⟩ := encode_spec w h (v - p) bits
    obtain ⟨h3, h4⟩ := ih v _ h1 (List.pairwise_cons.1 hs).2 (fun x hx => hlt x (by simp [hx]))
    have e : (v + 2 ^ 64 - p) % 2 ^ 64 = v - p := by omega
    unfold encodeAll
    rw [e]
    exact ⟨h3, by rw [h4, h2]; simp [codes]⟩

/-- The numbers of one bits at the start. -/
theorem readOnes_at {d : Bytes} : ∀ (n p q fuel : Nat) (r : Bit.Reader) (rest : List Bool), At d p r → n < fuel →
    (bitsOf d).drop p = List.replicate n true ++ (false :: rest) →
    (readOnes fuel q r).1 = q + n ∧ At d (p + n + 1) (readOnes fuel q r).2 := by
  intro n
  induction n with
  | zero =>
    intro p q fuel r rest h hf hd
    obtain ⟨fuel, rfl⟩ : ∃ k, fuel = k + 1 := ⟨fuel - 1, by omega⟩
    have hp : p < 8 * d.length := by
      have := congrArg List.length hd
      rw [List.length_drop, bitsOf_length] at this
      simp at this; omega
    obtain ⟨g1, g2⟩ := readBit_at h hp
    rw [drop_cons_of_getElem g1] at hd
    simp at hd
    unfold readOnes
    rw [hd.1]
    exact ⟨by simp, by simpa using g2⟩
  | succ n ih =>
    intro p q fuel r rest h hf hd
    obtain ⟨fuel, rfl⟩ : ∃ k, fuel = k + 1 := ⟨fuel - 1, by omega⟩
    have hp : p < 8 * d.length := by
      have := congrArg List.length hd
      rw [List.length_drop, bitsOf_length] at this
      simp at this; omega
    obtain ⟨g1, g2⟩ := readBit_at h hp
    rw [drop_cons_of_getElem g1, List.replicate_succ] at hd
    simp at hd
    obtain ⟨i1, i2⟩ := ih (p + 1) (q + 1) fuel _ rest g2 (by omega) (by simpa using hd.2)
    unfold readOnes
    rw [hd.1]
    simp only [if_true]
    exact ⟨by rw [i1]; omega, by rw [show p + (n + 1) + 1 = p + 1 + n + 1 by omega]; exact i2⟩

theorem decode_at {d : Bytes} {p : Nat} {r : Bit.Reader} (h : At d p r) (bits v : Nat) (hv : v < 2 ^ 64) (rest : List Bool)
    (hd : (bitsOf d).drop p = code bits v ++ rest) :
    (decode r bits).1 = v ∧ ∃ q, At d q (decode r bits).2 ∧ (bitsOf d).drop q = rest := by
  unfold code at hd
  rw [List.append_assoc, List.cons_append] at hd
  have hlen := congrArg List.length hd
  simp only [List.length_drop, bitsOf_length, List.length_append, List.length_replicate, List.length_cons, numBits_length] at hlen
  have hfuel : (if bits ≥ 64 then 0 else v >>> bits) < fuelOf r := by
    unfold fuelOf; rw [h.1]; omega
  obtain ⟨i1, i2⟩ := readOnes_at _ p 0 (fuelOf r) r _ h hfuel hd
  have hd2 : (bitsOf d).drop (p + (if bits ≥ 64 then 0 else v >>> bits) + 1) = numBits (min 64 bits) v ++ rest := by
    rw [show p + (if bits ≥ 64 then 0 else v >>> bits) + 1 = p + ((if bits ≥ 64 then 0 else v >>> bits) + 1) by omega, ← List.drop_drop, hd,
      ← List.drop_drop]
    rw [List.drop_append, List.drop_of_length_le (l := List.replicate _ _) (by simp)]
    simp
  have hle : p + (if bits ≥ 64 then 0 else v >>> bits) + 1 + min 64 bits ≤ 8 * d.length := by omega
  obtain ⟨j1, j2⟩ := readBits_at i2 bits hle
  have t := take_drop_of_append hd2
  rw [numBits_length] at t
  unfold decode
  refine ⟨?_, _, j2, t.2⟩
  simp only [i1, j1, t.1, toNum_numBits, Nat.zero_add]
  by_cases hb : bits ≥ 64
  · simp only [hb, if_true, Nat.zero_add]
    rw [show min 64 bits = 64 by omega, Nat.mod_mod]; exact Nat.mod_eq_of_lt hv
  · simp only [hb, if_false]
    rw [show min 64 bits = bits by omega, Nat.shiftRight_eq_div_pow, Nat.shiftLeft_eq]
    have hdm : v / 2 ^ bits * 2 ^ bits + v % 2 ^ bits = v := by rw [Nat.mul_comm]; exact Nat.div_add_mod v _
    have : v / 2 ^ bits * 2 ^ bits < 2 ^ 64 := by omega
    rw [Nat.mod_eq_of_lt this, hdm]; exact Nat.mod_eq_of_lt hv

/-- A load that finds no byte gives a zero byte. -/
theorem load_cases (r : Bit.Reader) : r.load.byte = 0 ∧ r.load.offset = 0 ∨
    r.load.src.data = r.src.data ∧ r.src.pos < r.src.data.length ∧ r.load.src.pos = r.src.pos + 1 ∧ r.load.offset = 0 := by
  unfold Bit.Reader.load doRead
  by_cases h1 : r.src.rem < 1
  · simp only [h1, if_true]; left; exact ⟨rfl, trivial⟩
  · simp only [h1, if_false]
    rw [noteSize_small (by decide)]
    by_cases h2 : r.src.good = true
    · simp only [h2, if_true]
      by_cases h3 : r.src.data.length - r.src.pos < 1
      · simp only [h3, if_true]
        left
        simp only [RS.rest, List.drop_of_length_le (show r.src.data.length ≤ r.src.pos by omega)]
        exact ⟨rfl, trivial⟩
      · simp only [h3, if_false]
        right
        exact ⟨trivial, by omega, trivial, trivial⟩
    · simp only [h2]
      left; exact ⟨rfl, trivial⟩

/-- The fuel of the unary loop never runs out, whatever the reader: more fuel changes nothing. -/
theorem unary_fuel (r : Bit.Reader) (q k : Nat) : readOnes (fuelOf r + k) q r = readOnes (fuelOf r) q r := by
  have step : ∀ r : Bit.Reader, r.readBit.1 = true →
      8 * (r.readBit.2.src.data.length - r.readBit.2.src.pos) + (8 - r.readBit.2.offset) < 8 * (r.src.data.length - r.src.pos) + (8 - r.offset) := by
    intro r hr
    unfold Bit.Reader.readBit at hr ⊢
    by_cases h8 : 8 - r.offset = 0
    · simp only [h8, if_true] at hr ⊢
      rcases load_cases r with ⟨h1, h2⟩ | ⟨h1, h2, h3, h4⟩
      · rw [h1, h2] at hr; exact absurd hr (by decide)
      · rw [h1, h3, h4]; omega
    · simp only [h8, if_false] at hr ⊢
      omega
  have key : ∀ (f : Nat) (r : Bit.Reader) (q k : Nat), 8 * (r.src.data.length - r.src.pos) + (8 - r.offset) < f → readOnes (f + k) q r = readOnes f q r := by
    intro f
    induction f with
    | zero => intro r q k h; omega
    | succ f ih =>
      intro r q k h
      rw [show f + 1 + k = (f + k) + 1 by omega]
      unfold readOnes
      by_cases hr : r.readBit.1 = true
      · simp only [hr, if_true]
        exact ih _ _ _ (by have := step r hr; omega)
      · simp only [hr]; rfl
  refine key _ r q k ?_
  unfold fuelOf
  have := Nat.sub_le r.src.data.length r.src.pos
  omega

/-! ## matching -/

theorem decoded_at {d : Bytes} (bits : Nat) : ∀ (set : List Nat) (prev p : Nat) (r : Bit.Reader) (rest : List Bool), At d p r →
    (prev :: set).Pairwise (· ≤ ·) → (∀ v ∈ set, v < 2 ^ 64) → (bitsOf d).drop p = codes bits prev set ++ rest →
    decoded bits set.length prev r = set := by
  intro set
  induction set with
  | nil => intros; rfl
  | cons v vs ih =>
    intro prev p r rest h hs hlt hd
    have hv := hlt v (by simp)
    have hp : prev ≤ v := (List.pairwise_cons.1 hs).1 v (by simp)
    rw [codes, List.append_assoc] at hd
    obtain ⟨e, q, hq, hd2⟩ := decode_at h bits (v - prev) (by omega) _ hd
    simp only [List.length_cons, decoded, e]
    rw [show prev + (v - prev) = v by omega, ih v q _ rest hq (List.pairwise_cons.1 hs).2 (fun x hx => hlt x (by simp [hx])) hd2]

theorem singleLoop_at {d : Bytes} (bits range : Nat) : ∀ (set : List Nat) (prev p : Nat) (r : Bit.Reader) (rest : List Bool), At d p r →
    (prev :: set).Pairwise (· ≤ ·) → (∀ v ∈ set, v < 2 ^ 64) → (bitsOf d).drop p = codes bits prev set ++ rest →
    (singleLoop bits range set.length prev r = true ↔ range ∈ set) := by
  intro set
  induction set with
  | nil => intros; simp [singleLoop]
  | cons v vs ih =>
    intro prev p r rest h hs hlt hd
    have hv := hlt v (by simp)
    have hs' := List.pairwise_cons.1 hs
    have hp : prev ≤ v := hs'.1 v (by simp)
    rw [codes, List.append_assoc] at hd
    obtain ⟨e, q, hq, hd2⟩ := decode_at h bits (v - prev) (by omega) _ hd
    have i := ih v q _ rest hq hs'.2 (fun x hx => hlt x (by simp [hx])) hd2
    simp only [List.length_cons, singleLoop, e]
    rw [show (prev + (v - prev)) % 2 ^ 64 = v by omega]
    by_cases h1 : v = range
    · simp [h1]
    · simp only [h1, if_false]
      by_cases h2 : v > range
      · simp only [h2, if_true]
        have : range ∉ v :: vs := by
          intro hm
          rcases List.mem_cons.1 hm with rfl | hm
          · exact h1 rfl
          · have := (List.pairwise_cons.1 hs'.2).1 _ hm; omega
        simp [this]
      · simp only [h2, if_false]
        rw [i, List.mem_cons]
        constructor
        · exact .inr
        · rintro (rfl | hm)
          · exact absurd rfl h1
          · exact hm

/-- The inner loop: a match is with the value or with one of the iterator's; otherwise the iterator only moves forward. -/
theorem stackInner_none {range : Nat} : ∀ {it : List Nat} {value : Nat}, stackInner range value it = none → range = value ∨ range ∈ it
  | [], _, h => by simp [stackInner] at h
  | v :: it, value, h => by
    unfold stackInner at h
    split at h
    · left; rename_i e; exact e.symm
    · split at h
      · simp at h
      · rcases stackInner_none h with rfl | h
        · right; simp
        · right; simp [h]

theorem stackInner_some {range : Nat} : ∀ {it : List Nat} {value : Nat} {it' : List Nat}, stackInner range value it = some it' → ∀ x ∈ it', x ∈ it
  | [], _, _, h => by simp [stackInner] at h; subst h; simp
  | v :: it, value, it', h => by
    unfold stackInner at h
    split at h
    · simp at h
    · split at h
      · simp at h; subst h; exact fun _ => id
      · intro x hx; simp [stackInner_some h x hx]

theorem stackLoop_sound {d : Bytes} (bits : Nat) : ∀ (set : List Nat) (prev p : Nat) (it : List Nat) (r : Bit.Reader) (rest : List Bool), At d p r →
    (prev :: set).Pairwise (· ≤ ·) → (∀ v ∈ set, v < 2 ^ 64) → (bitsOf d).drop p = codes bits prev set ++ rest →
    stackLoop bits set.length prev it r = true → ∃ v ∈ it, v ∈ set := by
  intro set
  induction set with
  | nil => intro prev p it r rest _ _ _ _ h; simp [stackLoop] at h
  | cons v vs ih =>
    intro prev p it r rest h hs hlt hd hm
    have hv := hlt v (by simp)
    have hs' := List.pairwise_cons.1 hs
    have hp : prev ≤ v := hs'.1 v (by simp)
    rw [codes, List.append_assoc] at hd
    obtain ⟨e, q, hq, hd2⟩ := decode_at h bits (v - prev) (by omega) _ hd
    cases it with
    | nil => simp [stackLoop] at hm
    | cons a it =>
      simp only [List.length_cons, stackLoop, e] at hm
      rw [show (prev + (v - prev)) % 2 ^ 64 = v by omega] at hm
      cases hi : stackInner v a (a :: it) with
      | none =>
        refine ⟨v, ?_, by simp⟩
        rcases stackInner_none hi with rfl | h
        · simp
        · exact h
      | some it' =>
        rw [hi] at hm
        obtain ⟨x, hx, hx2⟩ := ih v q it' _ rest hq hs'.2 (fun x hx => hlt x (by simp [hx])) hd2 hm
        exact ⟨x, stackInner_some hi x hx, by simp [hx2]⟩

theorem stackLoop_least {d : Bytes} (bits : Nat) : ∀ (set : List Nat) (prev p a : Nat) (it : List Nat) (r : Bit.Reader) (rest : List Bool), At d p r →
    (prev :: set).Pairwise (· ≤ ·) → (∀ v ∈ set, v < 2 ^ 64) → (bitsOf d).drop p = codes bits prev set ++ rest → a ∈ set →
    stackLoop bits set.length prev (a :: it) r = true := by
  intro set
  induction set with
  | nil => intro prev p a it r rest _ _ _ _ h; simp at h
  | cons v vs ih =>
    intro prev p a it r rest h hs hlt hd hm
    have hv := hlt v (by simp)
    have hs' := List.pairwise_cons.1 hs
    have hp : prev ≤ v := hs'.1 v (by simp)
    rw [codes, List.append_assoc] at hd
    obtain ⟨e, q, hq, hd2⟩ := decode_at h bits (v - prev) (by omega) _ hd
    simp only [List.length_cons, stackLoop, e]
    rw [show (prev + (v - prev)) % 2 ^ 64 = v by omega]
    unfold stackInner
    by_cases h1 : a = v
    · simp [h1]
    · have hm : a ∈ vs := by rcases List.mem_cons.1 hm with h | h; exact absurd h h1; exact h
      have := (List.pairwise_cons.1 hs'.2).1 _ hm
      simp only [h1, if_false, show a > v by omega, if_true]
      exact ih v q a it _ rest hq hs'.2 (fun x hx => hlt x (by simp [hx])) hd2 hm

/-! ## C29 -/

section
variable {h : Bytes → Nat} (hh : ∀ x, h x < 2 ^ 64)
include hh

/-- The bits of a constructed set. -/
theorem constructTo_spec (w : Writer) (hw : w.WF) (items : List Bytes) (bits rate : Nat) (hb : rate * items.length < 2 ^ 64) :
    (constructTo h w items bits rate).WF ∧
    (constructTo h w items bits rate).bits = w.bits ++ codes bits 0 (hashedSet h items items.length rate) := by
  refine encodeAll_spec bits _ 0 w hw (List.pairwise_cons.2 ⟨fun _ _ => Nat.zero_le _, hashedSet_sorted _ _ _ _⟩) ?_
  intro v hv
  obtain ⟨x, -, rfl⟩ := (mem_hashedSet hh items hb v).1 hv
  exact image_lt hh hb

theorem construct_bits (items : List Bytes) (bits rate : Nat) (hb : rate * items.length < 2 ^ 64) :
    ∃ rest, bitsOf (construct h items bits rate) = codes bits 0 (hashedSet h items items.length rate) ++ rest := by
  obtain ⟨h1, h2⟩ := constructTo_spec hh _ init_wf items bits rate hb
  obtain ⟨k, -, h3⟩ := flush_spec _ h1
  exact ⟨_, by unfold construct; rw [h3, h2]; rfl⟩

theorem set_ok (items : List Bytes) {n rate : Nat} (hb : rate * n < 2 ^ 64) :
    (0 :: hashedSet h items n rate).Pairwise (· ≤ ·) ∧ ∀ v ∈ hashedSet h items n rate, v < 2 ^ 64 := by
  refine ⟨List.pairwise_cons.2 ⟨fun _ _ => Nat.zero_le _, hashedSet_sorted _ _ _ _⟩, ?_⟩
  intro v hv
  obtain ⟨x, -, rfl⟩ := (mem_hashedSet hh items hb v).1 hv
  exact image_lt hh hb

/-- The encoded set decodes to the hashed values of the items, sorted. -/
theorem C29_decodes (items : List Bytes) (bits rate : Nat) (hb : rate * items.length < 2 ^ 64)
    (hs : (construct h items bits rate).length ≤ maxSize) :
    let out := decoded bits items.length 0 (Bit.Reader.init (construct h items bits rate))
    out.Perm (items.map (image h items.length rate)) ∧ out.Pairwise (· ≤ ·) := by
  obtain ⟨rest, hd⟩ := construct_bits hh items bits rate hb
  obtain ⟨s1, s2⟩ := set_ok hh items hb
  have := decoded_at bits _ 0 0 _ rest (init_at _ hs) s1 s2 hd
  rw [hashedSet_length hh items hb] at this
  simp only [this]
  rw [hashedSet_eq hh items hb]
  exact ⟨sort_perm _ _, sort_sorted _⟩

/-- A single match is exactly equality of the hashed value with that of some item. -/
theorem C29_single (items : List Bytes) (target : Bytes) (bits rate : Nat) (hb : rate * items.length < 2 ^ 64)
    (hs : (construct h items bits rate).length ≤ maxSize) :
    matchSingle h (construct h items bits rate) target items.length bits rate = true ↔
    ∃ x ∈ items, image h items.length rate x = image h items.length rate target := by
  obtain ⟨rest, hd⟩ := construct_bits hh items bits rate hb
  obtain ⟨s1, s2⟩ := set_ok hh items hb
  have := singleLoop_at bits (image h items.length rate target) _ 0 0 _ rest (init_at _ hs) s1 s2 hd
  rw [hashedSet_length hh items hb, mem_hashedSet hh items hb] at this
  rw [← this]
  unfold matchSingle matchSingleFrom
  rw [Nat.mod_eq_of_lt hb, hashToRange_eq hh hb]

/-- No false negatives: every item of the set matches. -/
theorem C29_member (items : List Bytes) (x : Bytes) (hx : x ∈ items) (bits rate : Nat) (hb : rate * items.length < 2 ^ 64)
    (hs : (construct h items bits rate).length ≤ maxSize) :
    matchSingle h (construct h items bits rate) x items.length bits rate = true :=
  (C29_single hh items x bits rate hb hs).2 ⟨x, hx, rfl⟩

/-- A match of a list of targets implies that one of them matches alone. -/
theorem C29_stack_sound (items targets : List Bytes) (bits rate : Nat) (hb : rate * items.length < 2 ^ 64)
    (hs : (construct h items bits rate).length ≤ maxSize)
    (hm : matchStack h (construct h items bits rate) targets items.length bits rate = true) :
    ∃ t ∈ targets, matchSingle h (construct h items bits rate) t items.length bits rate = true := by
  obtain ⟨rest, hd⟩ := construct_bits hh items bits rate hb
  obtain ⟨s1, s2⟩ := set_ok hh items hb
  unfold matchStack matchStackFrom at hm
  split at hm
  · simp at hm
  · have := stackLoop_sound bits _ 0 0 (hashedSet h targets items.length rate) _ rest (init_at _ hs) s1 s2 hd
    rw [hashedSet_length hh items hb] at this
    obtain ⟨v, hv, hv2⟩ := this hm
    obtain ⟨t, ht, rfl⟩ := (mem_hashedSet hh targets hb _).1 hv
    exact ⟨t, ht, (C29_single hh items t bits rate hb hs).2 ((mem_hashedSet hh items hb _).1 hv2)⟩

/-- A list of targets matches if the target with the least hashed value matches alone. (That any target matches alone is not
enough: `C29_stack_counterexample`.) -/
theorem C29_stack_partial (items targets : List Bytes) (t : Bytes) (ht : t ∈ targets) (bits rate : Nat) (hb : rate * items.length < 2 ^ 64)
    (hs : (construct h items bits rate).length ≤ maxSize)
    (hl : ∀ u ∈ targets, image h items.length rate t ≤ image h items.length rate u)
    (hm : matchSingle h (construct h items bits rate) t items.length bits rate = true) :
    matchStack h (construct h items bits rate) targets items.length bits rate = true := by
  obtain ⟨rest, hd⟩ := construct_bits hh items bits rate hb
  obtain ⟨s1, s2⟩ := set_ok hh items hb
  have hin := (mem_hashedSet hh items hb _).2 ((C29_single hh items t bits rate hb hs).1 hm)
  have htin := (mem_hashedSet hh targets hb (image h items.length rate t)).2 ⟨t, ht, rfl⟩
  unfold matchStack matchStackFrom
  rw [if_neg (by cases targets <;> simp_all)]
  have hsort := hashedSet_sorted h targets items.length rate
  cases hset : hashedSet h targets items.length rate with
  | nil => rw [hset] at htin; simp at htin
  | cons a it =>
    have ha : a = image h items.length rate t := by
      obtain ⟨u, hu, hu2⟩ := (mem_hashedSet hh targets hb a).1 (by rw [hset]; simp)
      have h1 := hl u hu
      rw [hset] at htin hsort
      rcases List.mem_cons.1 htin with e | e
      · exact e.symm
      · have := (List.pairwise_cons.1 hsort).1 _ e; omega
    have := stackLoop_least bits _ 0 0 a it _ rest (init_at _ hs) s1 s2 hd (by rw [ha]; exact hin)
    rwa [hashedSet_length hh items hb] at this

end

/-- Matching several targets misses a target that is in the set: with targets hashed to 0, 1, 3 and a set hashed to 2, 3 the iterator
passes over 3. -/
theorem C29_stack_counterexample : ∃ (h : Bytes → Nat) (items targets : List Bytes) (t : Bytes),
    (∀ x, h x < 2 ^ 64) ∧ t ∈ items ∧ t ∈ targets ∧
    matchSingle h (construct h items 2 2) t items.length 2 2 = true ∧
    matchStack h (construct h items 2 2) targets items.length 2 2 = false := by
  refine ⟨fun (x : Bytes) => (x.headD 0).toNat * 2 ^ 56, [[0x90], [0xd0]], [[0x10], [0x50], [0xd0]], [0xd0], ?_, by decide, by decide, by decide +kernel, by decide +kernel⟩
  intro x
  have := (x.headD 0).toNat_lt
  simp only []
  omega

/-! ## block filters -/

theorem readBytes_mirror {d : Bytes} {p : Nat} {r : Bit.Reader} (h : At d p r) (b : Bytes) (rest : List Bool)
    (hd : (bitsOf d).drop p = bitsOf b ++ rest) :
    (r.readBytes b.length).1 = b ∧ ∃ q, At d q (r.readBytes b.length).2 ∧ (bitsOf d).drop q = rest := by
  obtain ⟨e, q, hq⟩ := read_mirror h (.bytes b) rest hd
  simp only [Write.read, Write.value] at e hq
  exact ⟨Value.bytes.inj e, q, hq⟩

theorem readVariable_at {d : Bytes} {p : Nat} {r : Bit.Reader} (h : At d p r) (n : Nat) (hn : n < 2 ^ 64) (rest : List Bool)
    (hd : (bitsOf d).drop p = bitsOf (writeVariable n) ++ rest) :
    r.readVariable.1 = n ∧ ∃ q, At d q r.readVariable.2 ∧ (bitsOf d).drop q = rest := by
  unfold writeVariable writeLE at hd
  have wide : ∀ (m : UInt8) (k : Nat), n < 256 ^ k → (bitsOf d).drop p = bitsOf (m :: leBytes k n) ++ rest →
      (r.readBytes 1).1.headD 0 = m ∧ leNat ((r.readBytes 1).2.readBytes k).1 = n ∧
      ∃ q, At d q ((r.readBytes 1).2.readBytes k).2 ∧ (bitsOf d).drop q = rest := by
    intro m k hk hd
    rw [show m :: leBytes k n = [m] ++ leBytes k n from rfl, bitsOf_append, List.append_assoc] at hd
    obtain ⟨e1, q, hq, hd⟩ := readBytes_mirror h [m] _ hd
    obtain ⟨e2, q2, hq2, hd2⟩ := readBytes_mirror hq (leBytes k n) _ hd
    rw [leBytes_length] at e2 hq2
    simp only [List.length_singleton] at e1 e2 hq2
    exact ⟨by rw [e1]; rfl, by rw [e2, leNat_leBytes_of_lt hk], q2, hq2, hd2⟩
  unfold Bit.Reader.readVariable
  by_cases h1 : n < 0xfd
  · rw [if_pos h1] at hd
    obtain ⟨e1, q, hq, hd⟩ := readBytes_mirror h [UInt8.ofNat n] _ hd
    simp only [List.length_singleton] at e1 hq
    have hb : (UInt8.ofNat n).toNat = n := by rw [UInt8.toNat_ofNat']; omega
    have ne : ∀ m : UInt8, 0xfd ≤ m.toNat → UInt8.ofNat n ≠ m := by
      intro m hm e; rw [← e, hb] at hm; omega
    simp only [e1, List.headD_cons]
    rw [if_neg (ne _ (by decide)), if_neg (ne _ (by decide)), if_neg (ne _ (by decide))]
    exact ⟨hb, q, hq, hd⟩
  · rw [if_neg h1] at hd
    by_cases h2 : n ≤ 0xffff
    · rw [if_pos h2] at hd
      obtain ⟨e, e2, hq⟩ := wide 0xfd 2 (by omega) hd
      simp only [e, e2]
      rw [if_neg (by decide), if_neg (by decide), if_pos trivial, if_pos (by omega)]
      exact ⟨rfl, hq⟩
    · rw [if_neg h2] at hd
      by_cases h3 : n ≤ 0xffffffff
      · rw [if_pos h3] at hd
        obtain ⟨e, e2, hq⟩ := wide 0xfe 4 (by omega) hd
        simp only [e, e2]
        rw [if_neg (by decide), if_pos trivial, if_pos (by omega)]
        exact ⟨rfl, hq⟩
      · rw [if_neg h3] at hd
        obtain ⟨e, e2, hq⟩ := wide 0xff 8 (by omega) hd
        simp only [e, e2]
        rw [if_pos trivial, if_pos (by omega)]
        exact ⟨rfl, hq⟩

theorem mem_inputScripts {prevout : Input → Option Output} {x : Bytes} : ∀ {is : List Input} {l : List Bytes}, inputScripts prevout is = some l →
    (x ∈ l ↔ ∃ i ∈ is, ∃ o, prevout i = some o ∧ o.script.ops ≠ [] ∧ x = o.script.toData false)
  | [], l, h => by simp [inputScripts] at h; subst h; simp
  | i :: is, l, h => by
    unfold inputScripts at h
    cases hp : prevout i with
    | none => simp [hp] at h
    | some o =>
      simp only [hp, Option.map_eq_some_iff] at h
      obtain ⟨m, hm, rfl⟩ := h
      have ih := mem_inputScripts (x := x) hm
      by_cases he : o.script.ops = []
      · simp only [he, List.isEmpty_nil, if_true]
        rw [ih]
        constructor
        · rintro ⟨j, hj, r⟩; exact ⟨j, by simp [hj], r⟩
        · rintro ⟨j, hj, o', ho', hne, rfl⟩
          rcases List.mem_cons.1 hj with rfl | hj
          · rw [hp] at ho'; cases ho'; exact absurd he hne
          · exact ⟨j, hj, o', ho', hne, rfl⟩
      · have : o.script.ops.isEmpty = false := by cases hq : o.script.ops <;> simp_all
        simp only [this]
        rw [if_neg (by simp), List.mem_cons, ih]
        constructor
        · rintro (rfl | ⟨j, hj, r⟩)
          · exact ⟨i, by simp, o, hp, he, rfl⟩
          · exact ⟨j, by simp [hj], r⟩
        · rintro ⟨j, hj, o', ho', hne, rfl⟩
          rcases List.mem_cons.1 hj with rfl | hj
          · rw [hp] at ho'; cases ho'; left; rfl
          · right; exact ⟨j, hj, o', ho', hne, rfl⟩

theorem isReturn_iff (ops : List Op) : isReturn ops = false ↔ ∀ op, ops.head? = some op → op.code ≠ 106 := by
  cases ops <;> simp [isReturn]

theorem mem_outputScripts {x : Bytes} {os : List Output} : x ∈ outputScripts os ↔
    ∃ o ∈ os, o.script.ops ≠ [] ∧ (∀ op, o.script.ops.head? = some op → op.code ≠ 106) ∧ x = o.script.toData false := by
  unfold outputScripts
  rw [List.mem_filterMap]
  constructor
  · rintro ⟨o, ho, h⟩
    split at h
    · rename_i hc
      rw [Bool.and_eq_true, Bool.not_eq_true', Bool.not_eq_true'] at hc
      refine ⟨o, ho, ?_, (isReturn_iff _).1 hc.2, (Option.some.inj h).symm⟩
      intro he; rw [he] at hc; simp at hc
    · simp at h
  · rintro ⟨o, ho, h1, h2, rfl⟩
    refine ⟨o, ho, ?_⟩
    rw [if_pos]
    rw [Bool.and_eq_true, Bool.not_eq_true', Bool.not_eq_true']
    exact ⟨by cases hq : o.script.ops <;> simp_all, (isReturn_iff _).2 h2⟩

theorem mem_blockScripts {prevout : Input → Option Output} {x : Bytes} : ∀ {ts : List Tx} {l : List Bytes},
    blockScripts prevout ts = some l → (x ∈ l ↔ ∃ s, Element prevout ts s ∧ x = s.toData false)
  | [], l, h => by
    simp [blockScripts] at h; subst h
    simp only [List.not_mem_nil, false_iff]
    rintro ⟨s, hs, -⟩
    cases hs with
    | spent t i o h1 => simp at h1
    | created t o h1 => simp at h1
  | t :: ts, l, h => by
    unfold blockScripts at h
    have lift : ∀ s, Element prevout ts s → Element prevout (t :: ts) s := by
      intro s hs
      cases hs with
      | spent t' i o h1 h2 h3 h4 h5 => exact .spent t' i o (by simp at h1 ⊢; exact .inr h1) h2 h3 h4 h5
      | created t' o h1 h2 h3 h4 => exact .created t' o (by simp at h1 ⊢; exact .inr h1) h2 h3 h4
    split at h
    · simp at h
    · rename_i l1 hl1
      rw [Option.map_eq_some_iff] at h
      obtain ⟨m, hm, rfl⟩ := h
      have ih := mem_blockScripts (x := x) hm
      rw [List.mem_append, List.mem_append, ih, mem_outputScripts]
      constructor
      · rintro ((h1 | ⟨o, ho, h1, h2, rfl⟩) | ⟨s, hs, rfl⟩)
        · by_cases hc : Validate.isCoinbase t = true
          · rw [if_pos hc] at hl1; cases hl1; simp at h1
          · rw [if_neg hc] at hl1
            obtain ⟨i, hi, o, ho, hne, rfl⟩ := (mem_inputScripts hl1).1 h1
            exact ⟨o.script, .spent t i o (by simp) (by simpa using hc) hi ho hne, rfl⟩
        · exact ⟨o.script, .created t o (by simp) ho h1 h2, rfl⟩
        · exact ⟨s, lift s hs, rfl⟩
      · rintro ⟨s, hs, rfl⟩
        cases hs with
        | spent t' i o h1 h2 h3 h4 h5 =>
          simp only [List.mem_cons] at h1
          rcases h1 with rfl | h1
          · left; left
            rw [if_neg (by simp [h2])] at hl1
            exact (mem_inputScripts hl1).2 ⟨i, h3, o, h4, h5, rfl⟩
          · right; exact ⟨_, .spent t' i o h1 h2 h3 h4 h5, rfl⟩
        | created t' o h1 h2 h3 h4 =>
          simp only [List.mem_cons] at h1
          rcases h1 with rfl | h1
          · left; right; exact ⟨o, h2, h3, h4, rfl⟩
          · right; exact ⟨_, .created t' o h1 h2 h3 h4, rfl⟩

/-- A filter is computed iff every prevout it needs is populated. -/
theorem C29_filter_fails (h : Bytes → Nat) (prevout : Input → Option Output) (b : Block) : computeFilter h prevout b = none ↔
    ∃ t ∈ b.txs, Validate.isCoinbase t = false ∧ ∃ i ∈ t.inputs, prevout i = none := by
  have hin : ∀ is : List Input, inputScripts prevout is = none ↔ ∃ i ∈ is, prevout i = none := by
    intro is
    induction is with
    | nil => simp [inputScripts]
    | cons i is ih =>
      unfold inputScripts
      cases hp : prevout i with
      | none => simp [hp]
      | some o => simp [hp, ih]
  unfold computeFilter
  rw [Option.map_eq_none_iff]
  generalize b.txs = ts
  induction ts with
  | nil => simp [blockScripts]
  | cons t ts ih =>
    unfold blockScripts
    by_cases hc : Validate.isCoinbase t = true
    · simp [hc, ih]
    · simp only [hc]
      cases hi : inputScripts prevout t.inputs with
      | none => simp only [Bool.false_eq_true, if_false, true_iff]; exact ⟨t, by simp, by simpa using hc, (hin _).1 hi⟩
      | some l =>
        have hn : ¬ ∃ i ∈ t.inputs, prevout i = none := by rw [← hin, hi]; simp
        simp [ih, hn]

theorem bytesLe_total : ∀ a b : Bytes, bytesLe a b = true ∨ bytesLe b a = true
  | [], _ => .inl (by simp [bytesLe])
  | _ :: _, [] => .inr (by simp [bytesLe])
  | x :: xs, y :: ys => by
    simp only [bytesLe, Bool.or_eq_true, Bool.and_eq_true, decide_eq_true_eq, beq_iff_eq]
    rcases Nat.lt_trichotomy x.toNat y.toNat with h | h | h
    · exact .inl (.inl h)
    · rcases bytesLe_total xs ys with g | g
      · exact .inl (.inr ⟨UInt8.toNat_inj.1 h, g⟩)
      · exact .inr (.inr ⟨UInt8.toNat_inj.1 h.symm, g⟩)
    · exact .inr (.inl h)

theorem bytesLe_trans : ∀ {a b c : Bytes}, bytesLe a b = true → bytesLe b c = true → bytesLe a c = true
  | [], _, _, _, _ => by simp [bytesLe]
  | _ :: _, [], _, h, _ => by simp [bytesLe] at h
  | _ :: _, _ :: _, [], _, h => by simp [bytesLe] at h
  | x :: xs, y :: ys, z :: zs, h1, h2 => by
    simp only [bytesLe, Bool.or_eq_true, Bool.and_eq_true, decide_eq_true_eq, beq_iff_eq] at h1 h2 ⊢
    rcases h1 with h1 | ⟨rfl, h1⟩
    · rcases h2 with h2 | ⟨rfl, h2⟩
      · exact .inl (UInt8.lt_trans h1 h2)
      · exact .inl h1
    · rcases h2 with h2 | ⟨rfl, h2⟩
      · exact .inl h2
      · exact .inr ⟨rfl, bytesLe_trans h1 h2⟩

theorem bytesLe_antisymm : ∀ {a b : Bytes}, bytesLe a b = true → bytesLe b a = true → a = b
  | [], [], _, _ => rfl
  | [], _ :: _, _, h => by simp [bytesLe] at h
  | _ :: _, [], h, _ => by simp [bytesLe] at h
  | x :: xs, y :: ys, h1, h2 => by
    simp only [bytesLe, Bool.or_eq_true, Bool.and_eq_true, decide_eq_true_eq, beq_iff_eq] at h1 h2
    rcases h1 with h1 | ⟨rfl, h1⟩
    · rcases h2 with h2 | ⟨rfl, h2⟩
      · exact absurd (UInt8.lt_trans h1 h2) (UInt8.lt_irrefl x)
      · exact absurd h1 (UInt8.lt_irrefl _)
    · rcases h2 with h2 | ⟨-, h2⟩
      · exact absurd h2 (UInt8.lt_irrefl _)
      · rw [bytesLe_antisymm h1 h2]

theorem sort_bytes_sorted (l : List Bytes) : (sort bytesLe l).Pairwise (fun a b => bytesLe a b = true) := by
  have ins : ∀ (x : Bytes) (l : List Bytes), l.Pairwise (fun a b => bytesLe a b = true) → (insert bytesLe x l).Pairwise (fun a b => bytesLe a b = true) := by
    intro x l
    induction l with
    | nil => intro _; simp [insert]
    | cons a l ih =>
      intro h
      unfold insert
      rw [List.pairwise_cons] at h
      split
      · rename_i hx
        refine List.pairwise_cons.2 ⟨?_, List.pairwise_cons.2 h⟩
        intro y hy
        rcases List.mem_cons.1 hy with rfl | hy
        · exact hx
        · exact bytesLe_trans hx (h.1 y hy)
      · rename_i hx
        refine List.pairwise_cons.2 ⟨?_, ih h.2⟩
        intro y hy
        rcases (mem_insert _ _ _ _).1 hy with rfl | hy
        · exact (bytesLe_total a y).resolve_right hx
        · exact h.1 y hy
  induction l with
  | nil => exact .nil
  | cons a l ih => exact ins a _ ih

theorem unique_nodup : ∀ l : List Bytes, l.Pairwise (fun a b => bytesLe a b = true) → (unique l).Nodup
  | [], _ => by simp [unique]
  | [x], _ => by simp [unique]
  | a :: b :: l, h => by
    unfold unique
    rw [List.pairwise_cons] at h
    split
    · exact unique_nodup _ h.2
    · rename_i hne
      refine List.nodup_cons.2 ⟨?_, unique_nodup _ h.2⟩
      rw [mem_unique]
      intro hm
      rcases List.mem_cons.1 hm with rfl | hm
      · exact hne rfl
      · have h1 := h.1 b (by simp)
        have h2 := (List.pairwise_cons.1 h.2).1 a hm
        exact hne (bytesLe_antisymm h1 h2)

theorem distinct_nodup (l : List Bytes) : (distinct l).Nodup := unique_nodup _ (sort_bytes_sorted l)

/-- Block filters. The filter's items are the distinct data of its elements; a script matches exactly if its hashed value is that of
an item. -/
theorem C29_filter {h : Bytes → Nat} (hh : ∀ x, h x < 2 ^ 64) (prevout : Input → Option Output) (b : Block) (f : Bytes)
    (hf : computeFilter h prevout b = some f) (hs : f.length ≤ maxSize) :
    ∃ items : List Bytes, items.Nodup ∧ (∀ x, x ∈ items ↔ ∃ e, Element prevout b.txs e ∧ x = e.toData false) ∧
      (golombRate * items.length < 2 ^ 64 → ∀ s : Script, matchFilter h f s = true ↔
        s.ops ≠ [] ∧ ∃ x ∈ items, image h items.length golombRate x = image h items.length golombRate (s.toData false)) := by
  unfold computeFilter at hf
  rw [Option.map_eq_some_iff] at hf
  obtain ⟨scripts, hsc, rfl⟩ := hf
  refine ⟨distinct scripts, distinct_nodup _, fun x => by rw [mem_distinct]; exact mem_blockScripts hsc, ?_⟩
  intro hb s
  generalize hi : distinct scripts = items at *
  obtain ⟨w1, w2⟩ := writeBytes_spec (writeVariable items.length) _ init_wf
  obtain ⟨c1, c2⟩ := constructTo_spec hh _ w1 items golombBits golombRate hb
  obtain ⟨k, -, hfl⟩ := flush_spec _ c1
  rw [c2, w2, List.append_assoc] at hfl
  simp only [] at hs ⊢
  generalize hfd : (constructTo h (Writer.init.writeBytes (writeVariable items.length)) items golombBits golombRate).flush.out = d at *
  have hd : (bitsOf d).drop 0 = bitsOf (writeVariable items.length) ++ (codes golombBits 0 (hashedSet h items items.length golombRate) ++ List.replicate k false) := by
    rw [List.drop_zero, hfl, List.append_assoc]; rfl
  have hn : items.length < 2 ^ 64 := by
    have : 1 * items.length ≤ golombRate * items.length := Nat.mul_le_mul_right _ (by decide)
    omega
  obtain ⟨e, q, hq, hd2⟩ := readVariable_at (init_at d hs) items.length hn _ hd
  obtain ⟨s1, s2⟩ := set_ok hh items hb
  have key := singleLoop_at golombBits (image h items.length golombRate (s.toData false)) _ 0 q _ _ hq s1 s2 hd2
  rw [hashedSet_length hh items hb, mem_hashedSet hh items hb] at key
  unfold matchFilter
  simp only [e, hq.2.1]
  by_cases he : s.ops = []
  · simp [he]
  · have : s.ops.isEmpty = false := by cases hq : s.ops <;> simp_all
    simp only [this, Bool.not_true, Bool.false_eq_true, if_false, ne_eq, he, not_false_eq_true, true_and]
    rw [← key]
    unfold matchSingleFrom
    rw [Nat.mod_eq_of_lt hb, hashToRange_eq hh hb]

/-- No false negatives in block filters. -/
theorem C29_filter_member {h : Bytes → Nat} (hh : ∀ x, h x < 2 ^ 64) (prevout : Input → Option Output) (b : Block) (f : Bytes)
    (hf : computeFilter h prevout b = some f) (hs : f.length ≤ maxSize)
    (hb : ∀ scripts, blockScripts prevout b.txs = some scripts → golombRate * (distinct scripts).length < 2 ^ 64)
    (s : Script) (he : Element prevout b.txs s) : matchFilter h f s = true := by
  have hf' := hf
  unfold computeFilter at hf'
  rw [Option.map_eq_some_iff] at hf'
  obtain ⟨scripts, hsc, -⟩ := hf'
  obtain ⟨items, hnd, hmem, hm⟩ := C29_filter hh prevout b f hf hs
  have hlen : items.length ≤ (distinct scripts).length := by
    have hsub : ∀ x ∈ items, x ∈ distinct scripts := by
      intro x hx
      rw [mem_distinct]
      exact (mem_blockScripts hsc).2 ((hmem x).1 hx)
    exact List.Nodup.length_le_of_subset hnd hsub
  have hb' : golombRate * items.length < 2 ^ 64 := Nat.lt_of_le_of_lt (Nat.mul_le_mul_left _ hlen) (hb scripts hsc)
  refine (hm hb' s).2 ⟨?_, s.toData false, (hmem _).2 ⟨s, he, rfl⟩, rfl⟩
  cases he <;> assumption

/-- Non-vacuity: a filter for a block whose outputs are a plain, an empty and a return script. -/
def exampleScripts : List Script := [Script.ofOps [{ code := 0x51 }], Script.ofOps [], Script.ofOps [{ code := 106 }], Script.ofOps [{ code := 0x52 }]]
def exampleBlock : Block :=
  { header := { version := 1, previous := nullHash, merkleRoot := nullHash, timestamp := 0, bits := 0, nonce := 0 }
    txs := [{ version := 1, inputs := [], outputs := exampleScripts.map fun s => { value := 0, script := s }, locktime := 0, segregated := false, valid := true }] }
def exampleHash (x : Bytes) : Nat := (x.headD 0).toNat * 2 ^ 50

example : ∃ f, computeFilter exampleHash (fun _ => none) exampleBlock = some f ∧
    exampleScripts.map (matchFilter exampleHash f) = [true, false, false, true] := by
  refine ⟨_, rfl, ?_⟩
  decide +kernel

end Verif.Golomb
