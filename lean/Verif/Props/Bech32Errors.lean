import Verif.Lemmas.Bech32Errors
import Verif.Props.WitnessAddress
/-!
# C78: several wrong characters of a witness address are detected

Two accepted addresses with the same prefix and length differ in at least four characters of the data part, and in at least five unless
exactly one of them has version zero (the two checksum constants of BIP173 and BIP350).
-/
namespace Verif.Bech32
open Verif Verif.Pack

/-- The number of places in which two lists differ. -/
def differences {α : Type} [DecidableEq α] (a b : List α) : Nat := (a.zip b).countP fun p => decide (p.1 ≠ p.2)

def weight (d : List Nat) : Nat := d.countP fun v => decide (v ≠ 0)

theorem peel : ∀ (d : List Nat), weight d ≠ 0 → ∃ (n v : Nat) (r : List Nat), d = List.replicate n 0 ++ v :: r ∧ v ≠ 0 ∧ weight d = weight r + 1
  | [], h => absurd rfl h
  | v :: d, h => by
    by_cases hv : v = 0
    · subst hv
      have e : weight (0 :: d) = weight d := by simp [weight]
      rw [e] at h
      obtain ⟨n, w, r, rfl, h2, h3⟩ := peel d h
      refine ⟨n + 1, w, r, ?_, h2, e.trans h3⟩
      rw [List.replicate_succ]; rfl
    · refine ⟨0, v, d, rfl, hv, ?_⟩
      simp [weight, hv]

theorem run_peel (n v : Nat) (r : List Nat) : run 0 (List.replicate n 0 ++ v :: r) = iter r.length v ^^^ run 0 r := by
  rw [run_append, run_zero_zeros, run_cons, run_split]
  have : step 0 = 0 := by decide
  rw [this, Nat.zero_xor]
  rfl

theorem weight_zero (d : List Nat) (h : weight d = 0) : d = List.replicate d.length 0 := by
  rw [List.eq_replicate_iff]
  refine ⟨rfl, fun v hv => ?_⟩
  have := List.countP_eq_zero.1 h v hv
  simpa using this

theorem run_weight_zero (d : List Nat) (h : weight d = 0) : run 0 d = 0 := by
  rw [weight_zero d h, run_zero_zeros]

/-- A list with few nonzero members, as a sum of shifted groups in decreasing places. -/
theorem terms (d : List Nat) (hd : ∀ v ∈ d, v < 32) (hw : weight d ≠ 0) : ∃ (p v : Nat) (r : List Nat), run 0 d = iter p v ^^^ run 0 r ∧ v ≠ 0 ∧ v < 32 ∧
    (∀ w ∈ r, w < 32) ∧ weight d = weight r + 1 ∧ p < d.length ∧ r.length = p := by
  obtain ⟨n, v, r, rfl, h2, h3⟩ := peel d hw
  refine ⟨r.length, v, r, run_peel n v r, h2, hd v (by simp), fun w hw => hd w (by simp [hw]), h3, ?_, rfl⟩
  simp only [List.length_append, List.length_cons, List.length_replicate]; omega

theorem facts_from {q : Nat} (h0 : 0 < q) (h : q < 89) : ∃ t1 t2, Facts t1 1 t2 (elim t1 1 (iter q 1)) (powers.drop (q + 1)) := by
  have hl : powers.length = 89 := by decide
  have := checkFrom_get powers.tail powers_apart (q - 1) (by rw [List.length_tail]; omega)
  rw [List.getElem_tail, List.drop_tail] at this
  have e : q - 1 + 1 = q := by omega
  simp only [e] at this
  rw [powers_get] at this
  exact check_sound this

theorem facts_to {p : Nat} (h : p < 71) : ∃ t1 t2, Facts t1 (1 ^^^ 0x2bc830a3) t2 (elim t1 (1 ^^^ 0x2bc830a3) (iter p 1)) (powers.take p).reverse := by
  have hl : powers.length = 89 := by decide
  have := checkTo_get _ _ _ powers_difference p (by rw [List.length_take]; omega)
  rw [List.append_nil, List.getElem_take, powers_get, List.take_take, Nat.min_eq_left (by omega)] at this
  exact check_sound this

theorem powers_lt : ∀ v ∈ powers, v < 2 ^ 30 := by
  rw [powers_eq]
  intro v hv
  obtain ⟨i, -, rfl⟩ := List.mem_map.1 hv
  exact iter_lt (by decide) i

theorem drop_get {q j : Nat} (h1 : q < j) (h2 : j < 89) : ∃ h : j - (q + 1) < (powers.drop (q + 1)).length, (powers.drop (q + 1))[j - (q + 1)] = iter j 1 := by
  have hl : powers.length = 89 := by decide
  refine ⟨by rw [List.length_drop]; omega, ?_⟩
  rw [List.getElem_drop]
  have e : q + 1 + (j - (q + 1)) = j := by omega
  simp only [e]
  exact powers_get _ _

theorem take_get {p j : Nat} (h1 : j < p) (h2 : p < 89) : ∃ h : p - 1 - j < (powers.take p).reverse.length, (powers.take p).reverse[p - 1 - j] = iter j 1 := by
  have hl : powers.length = 89 := by decide
  have ht : (powers.take p).length = p := by rw [List.length_take]; omega
  refine ⟨by rw [List.length_reverse, ht]; omega, ?_⟩
  rw [List.getElem_reverse]
  have e : (powers.take p).length - 1 - (p - 1 - j) = j := by rw [ht]; omega
  simp only [e, List.getElem_take]
  exact powers_get _ _

theorem one_lt : 1 < 2 ^ 30 := by decide

/-- Groups in up to four of 89 places do not cancel. -/
theorem no_cancel_two {i a b : Nat} (h0 : 0 < i) (h : i < 89) (ha : a < 32) (hb : b < 32) (hb0 : b ≠ 0) : a ^^^ iter i b ≠ 0 := by
  intro e
  obtain ⟨t1, t2, F⟩ := facts_from h0 h
  rw [iter_eq hb, ← smul_unit a ha] at e
  exact hb0 (indep_two F one_lt (iter_lt one_lt _) hb e)

theorem no_cancel_three {i j a b c : Nat} (h0 : 0 < i) (h1 : i < j) (h : j < 89) (ha : a < 32) (hb : b < 32) (hc : c < 32) (hc0 : c ≠ 0) :
    a ^^^ (iter i b ^^^ iter j c) ≠ 0 := by
  intro e
  obtain ⟨t1, t2, F⟩ := facts_from h0 (by omega)
  rw [iter_eq hb, iter_eq hc, ← smul_unit a ha] at e
  obtain ⟨hl, hg⟩ := drop_get h1 h
  exact hc0 (indep_three F one_lt (iter_lt one_lt _) (hg ▸ List.getElem_mem hl) (iter_lt one_lt _) hc e)

theorem no_cancel_four {i j k a b c d : Nat} (h0 : 0 < i) (h1 : i < j) (h2 : j < k) (h : k < 89) (ha : a < 32) (hb : b < 32) (hc : c < 32) (hc0 : c ≠ 0)
    (hd : d < 32) (hd0 : d ≠ 0) : a ^^^ (iter i b ^^^ (iter j c ^^^ iter k d)) ≠ 0 := by
  intro e
  obtain ⟨t1, t2, F⟩ := facts_from h0 (by omega)
  rw [iter_eq hb, iter_eq hc, iter_eq hd, ← smul_unit a ha] at e
  obtain ⟨hl, hg⟩ := drop_get h1 (by omega)
  obtain ⟨hl2, hg2⟩ := drop_get (q := i) (j := k) (by omega) (by omega)
  rw [← hg, ← hg2] at e
  exact indep_four F one_lt (iter_lt one_lt _) hl hl2 (by omega) (fun v hv => powers_lt v (List.drop_subset _ _ hv)) hc hd hc0 hd0 e

theorem shift_down {p q v : Nat} (h : q ≤ p) : iter p v = iter q (iter (p - q) v) := by
  rw [← iter_add]; congr 1; omega

theorem group_lt {v : Nat} (h : v < 32) : v < 2 ^ 30 := Nat.lt_trans h (by decide)

/-- A nonzero list of at most 89 groups with at most four that are not zero has a nonzero checksum. -/
theorem detect (d : List Nat) (hd : ∀ v ∈ d, v < 32) (hl : d.length ≤ 89) (h0 : weight d ≠ 0) (h4 : weight d ≤ 4) : run 0 d ≠ 0 := by
  obtain ⟨p1, v1, r1, e1, n1, l1, b1, w1, s1, q1⟩ := terms d hd h0
  rw [e1]
  by_cases z1 : weight r1 = 0
  · rw [run_weight_zero _ z1, Nat.xor_zero]
    exact fun h => n1 (iter_eq_zero (group_lt l1) h)
  obtain ⟨p2, v2, r2, e2, n2, l2, b2, w2, s2, q2⟩ := terms r1 b1 z1
  rw [e2]
  by_cases z2 : weight r2 = 0
  · rw [run_weight_zero _ z2, Nat.xor_zero, shift_down (p := p1) (q := p2) (by omega), ← iter_xor]
    intro h
    have := iter_eq_zero (Nat.xor_lt_two_pow (iter_lt (group_lt l1) _) (group_lt l2)) h
    rw [Nat.xor_comm] at this
    exact no_cancel_two (by omega) (by omega) l2 l1 n1 this
  obtain ⟨p3, v3, r3, e3, n3, l3, b3, w3, s3, q3⟩ := terms r2 b2 z2
  rw [e3]
  by_cases z3 : weight r3 = 0
  · rw [run_weight_zero _ z3, Nat.xor_zero, shift_down (p := p1) (q := p3) (by omega), shift_down (p := p2) (q := p3) (by omega), ← iter_xor, ← iter_xor]
    intro h
    have := iter_eq_zero (Nat.xor_lt_two_pow (iter_lt (group_lt l1) _) (Nat.xor_lt_two_pow (iter_lt (group_lt l2) _) (group_lt l3))) h
    rw [Nat.xor_comm, Nat.xor_comm _ v3, Nat.xor_assoc] at this
    exact no_cancel_three (by omega) (by omega) (by omega) l3 l2 l1 n1 this
  obtain ⟨p4, v4, r4, e4, n4, l4, b4, w4, s4, q4⟩ := terms r3 b3 z3
  rw [e4, run_weight_zero r4 (by omega), Nat.xor_zero, shift_down (p := p1) (q := p4) (by omega), shift_down (p := p2) (q := p4) (by omega),
    shift_down (p := p3) (q := p4) (by omega), ← iter_xor, ← iter_xor, ← iter_xor]
  intro h
  have := iter_eq_zero (Nat.xor_lt_two_pow (iter_lt (group_lt l1) _)
    (Nat.xor_lt_two_pow (iter_lt (group_lt l2) _) (Nat.xor_lt_two_pow (iter_lt (group_lt l3) _) (group_lt l4)))) h
  refine no_cancel_four (i := p3 - p4) (j := p2 - p4) (k := p1 - p4) (by omega) (by omega) (by omega) (by omega) l4 l3 l2 n2 l1 n1 ?_
  rw [← this]
  generalize iter (p1 - p4) v1 = x, iter (p2 - p4) v2 = y, iter (p3 - p4) v3 = z
  rw [Nat.xor_comm y x, Nat.xor_comm v4, Nat.xor_comm z (x ^^^ y), Nat.xor_assoc, Nat.xor_assoc]

theorem difference_lt : (1 ^^^ 0x2bc830a3) < 2 ^ 30 := by decide
theorem difference_unit : smul 6 1 (1 ^^^ 0x2bc830a3) = (1 ^^^ 0x2bc830a3) := by decide +kernel

/-- With at most 71 groups and at most three that are not zero it is not the difference of the constants either. -/
theorem detect_difference (d : List Nat) (hd : ∀ v ∈ d, v < 32) (hl : d.length ≤ 71) (h3 : weight d ≤ 3) : run 0 d ≠ (1 ^^^ 0x2bc830a3) := by
  by_cases z0 : weight d = 0
  · rw [run_weight_zero _ z0]; decide
  obtain ⟨p1, v1, r1, e1, n1, l1, b1, w1, s1, q1⟩ := terms d hd z0
  obtain ⟨t1, t2, F⟩ := facts_to (p := p1) (by omega)
  have key : ∀ x, iter p1 v1 ^^^ x = (1 ^^^ 0x2bc830a3) → smul 6 1 (1 ^^^ 0x2bc830a3) ^^^ (smul 6 v1 (iter p1 1) ^^^ x) = 0 := by
    intro x h
    rw [difference_unit, ← iter_eq l1, h, Nat.xor_self]
  rw [e1]
  by_cases z1 : weight r1 = 0
  · rw [run_weight_zero _ z1]
    intro h
    have := key _ h
    rw [Nat.xor_zero] at this
    exact n1 (indep_two F difference_lt (iter_lt one_lt _) l1 this)
  obtain ⟨p2, v2, r2, e2, n2, l2, b2, w2, s2, q2⟩ := terms r1 b1 z1
  rw [e2]
  obtain ⟨hl2, hg2⟩ := take_get (p := p1) (j := p2) (by omega) (by omega)
  by_cases z2 : weight r2 = 0
  · rw [run_weight_zero _ z2, Nat.xor_zero]
    intro h
    have := key _ h
    rw [iter_eq l2] at this
    exact n2 (indep_three F difference_lt (iter_lt one_lt _) (hg2 ▸ List.getElem_mem hl2) (iter_lt one_lt _) l2 this)
  obtain ⟨p3, v3, r3, e3, n3, l3, b3, w3, s3, q3⟩ := terms r2 b2 z2
  obtain ⟨hl3, hg3⟩ := take_get (p := p1) (j := p3) (by omega) (by omega)
  rw [e3, run_weight_zero r3 (by omega), Nat.xor_zero]
  intro h
  have := key _ h
  rw [iter_eq l2, iter_eq l3, ← hg2, ← hg3] at this
  refine indep_four F difference_lt (iter_lt one_lt _) hl2 hl3 (by omega) ?_ l2 l3 n2 n3 this
  intro v hv
  exact powers_lt v (List.take_subset _ _ (List.mem_reverse.1 hv))

theorem weight_zip : ∀ (a b : List Nat), a.length = b.length → weight (List.zipWith (· ^^^ ·) a b) = differences a b
  | [], b, _ => by simp [weight, differences]
  | x :: a, [], h => by simp at h
  | x :: a, y :: b, h => by
    have ih := weight_zip a b (by simpa using h)
    unfold weight differences at ih ⊢
    rw [List.zipWith_cons_cons, List.zip_cons_cons, List.countP_cons, List.countP_cons, ih]
    congr 1
    have : x ^^^ y ≠ 0 ↔ x ≠ y := ⟨fun h e => h (by rw [e, Nat.xor_self]), fun h e => h (xor_eq_zero e)⟩
    by_cases hx : x = y <;> simp [hx, this]

theorem differences_zero {α : Type} [DecidableEq α] : ∀ (a b : List α), a.length = b.length → (differences a b = 0 ↔ a = b)
  | [], [], _ => by simp [differences]
  | [], _ :: _, h => by simp at h
  | _ :: _, [], h => by simp at h
  | x :: a, y :: b, h => by
    have ih := differences_zero a b (by simpa using h)
    unfold differences at ih ⊢
    rw [List.zip_cons_cons, List.countP_cons, Nat.add_eq_zero_iff, ih, List.cons.injEq]
    by_cases hx : x = y <;> simp [hx]

theorem checksum_xor (p : Bytes) (g g' : List Nat) (h : g.length = g'.length) :
    checksum (expandPrefix p ++ g) ^^^ checksum (expandPrefix p ++ g') = run 0 (List.zipWith (· ^^^ ·) g g') := by
  rw [checksum_eq, checksum_eq, run_append, run_append, ← run_xor _ _ _ _ h, Nat.xor_self]

theorem zip_lt {g g' : List Nat} (hg : ∀ v ∈ g, v < 32) (hg' : ∀ v ∈ g', v < 32) : ∀ v ∈ List.zipWith (· ^^^ ·) g g', v < 32 := by
  intro v hv
  rw [← List.map_uncurry_zip_eq_zipWith] at hv
  obtain ⟨⟨a, b⟩, hm, rfl⟩ := List.mem_map.1 hv
  exact Nat.xor_lt_two_pow (n := 5) (hg _ (List.of_mem_zip hm).1) (hg' _ (List.of_mem_zip hm).2)

/-- **C78**: two different lists of groups that verify with the same prefix differ in at least four places, and in at least five if both or
neither begin with version zero (there up to a length of 89). -/
theorem C78_groups (p : Bytes) (g g' : List Nat) (hg : ∀ v ∈ g, v < 32) (hg' : ∀ v ∈ g', v < 32) (hl : g.length = g'.length) (hne : g ≠ g')
    (h : (verifyChecked p g).isSome = true) (h' : (verifyChecked p g').isSome = true) :
    (g.length ≤ 71 → 4 ≤ differences g g') ∧
    (g.length ≤ 89 → (g.headD 0 = 0 ↔ g'.headD 0 = 0) → 5 ≤ differences g g') := by
  rw [C35_constant] at h h'
  have hx := checksum_xor p g g' hl
  rw [h.2, h'.2] at hx
  have hw := weight_zip g g' hl
  have hw0 : weight (List.zipWith (· ^^^ ·) g g') ≠ 0 := by rw [hw, ne_eq, differences_zero g g' hl]; exact hne
  have hlen : (List.zipWith (· ^^^ ·) g g').length = g.length := by rw [List.length_zipWith, hl, Nat.min_self]
  have hlt := zip_lt hg hg'
  rw [← hw]
  generalize List.zipWith (· ^^^ ·) g g' = d at hx hw0 hlen hlt
  constructor
  · intro h71
    by_contra hc
    have k1 := detect d hlt (by omega) hw0 (by omega)
    have k2 := detect_difference d hlt (by omega) (by omega)
    split at hx <;> split at hx
    · exact k1 (by rw [← hx]; decide)
    · exact k2 hx.symm
    · exact k2 (by rw [← hx]; decide)
    · exact k1 (by rw [← hx]; decide)
  · intro h89 hz
    by_contra hc
    refine detect d hlt (by omega) hw0 (by omega) ?_
    rw [← hx]
    by_cases hh : g.headD 0 = 0
    · rw [if_pos hh, if_pos (hz.1 hh)]; decide
    · rw [if_neg hh, if_neg (fun h => hh (hz.2 h))]; decide

/-! ## Addresses -/

theorem char_inj : ∀ v < 32, ∀ w < 32, base32Chars.getD v 0 = base32Chars.getD w 0 → v = w := by decide +kernel

theorem differences_encode : ∀ (g g' : List Nat), (∀ v ∈ g, v < 32) → (∀ v ∈ g', v < 32) → differences (encodeGroups g) (encodeGroups g') = differences g g'
  | [], _, _, _ => by simp [differences, encodeGroups]
  | _ :: _, [], _, _ => by simp [differences, encodeGroups]
  | x :: a, y :: b, h, h' => by
    have ih := differences_encode a b (fun v hv => h v (by simp [hv])) (fun v hv => h' v (by simp [hv]))
    unfold differences encodeGroups at ih ⊢
    rw [List.map_cons, List.map_cons, List.zip_cons_cons, List.zip_cons_cons, List.countP_cons, List.countP_cons, ih]
    congr 1
    have hi := char_inj x (h x (by simp)) y (h' y (by simp))
    by_cases hx : x = y
    · simp [hx]
    · have : ¬ base32Chars.getD x 0 = base32Chars.getD y 0 := fun e => hx (hi e)
      simp only [ne_eq, hx, not_false_eq_true, this]

theorem differences_append {α : Type} [DecidableEq α] (p a b : List α) : differences (p ++ a) (p ++ b) = differences a b := by
  induction p with
  | nil => rfl
  | cons x p ih =>
    rw [← ih]
    simp [differences]

/-- **C78**: two different accepted addresses (letter case apart) with the same prefix and length differ in at least four characters, and in at
least five unless exactly one has version zero. -/
theorem C78_distance (s s' : Bytes) (strict strict' : Bool) (a a' : Address) (h : parseAddress s strict = .ok a) (h' : parseAddress s' strict' = .ok a')
    (hp : a.prefix_ = a'.prefix_) (hl : s.length = s'.length) (hne : toLower s ≠ toLower s') :
    4 ≤ differences (toLower s) (toLower s') ∧ ((a.version = 0 ↔ a'.version = 0) → 5 ≤ differences (toLower s) (toLower s')) := by
  obtain ⟨-, -, g, hg, hs, -, -, -, h11, h71, hc, hv, -, -⟩ := (C57_accepts _ _ _).1 h
  obtain ⟨-, -, g', hg', hs', -, -, -, h11', h71', hc', hv', -, -⟩ := (C57_accepts _ _ _).1 h'
  have hlow : ∀ t : Bytes, (toLower t).length = t.length := fun t => List.length_map _
  have hlen : g.length = g'.length := by
    rw [← hlow s, ← hlow s', hs, hs', hp] at hl
    simp only [List.length_append, encodeGroups_length] at hl
    omega
  rw [hs, hs', ← hp] at hne ⊢
  rw [differences_append, differences_encode g g' hg hg']
  have hgne : g ≠ g' := fun e => hne (by rw [e])
  have key := C78_groups a.prefix_ g g' hg hg' hlen hgne ((C35_constant _ _).2 ⟨by omega, by rw [hc, hv]⟩)
    ((C35_constant _ _).2 ⟨by omega, by rw [hp, hc', hv']⟩)
  rw [hv, hv'] at key
  exact ⟨key.1 h71, key.2 (by omega)⟩

/-- **C78**: an accepted address with one to three wrong characters in its data part is rejected; so is one with four, unless the version
character was exchanged between version zero and another. -/
theorem C78_detects (p d d' : Bytes) (strict strict' : Bool) (a : Address) (h : parseAddress (p ++ [49] ++ d) strict = .ok a) (hd : 49 ∉ d)
    (hl : d'.length = d.length) (hd' : 49 ∉ d') (h0 : differences (toLower d) (toLower d') ≠ 0)
    (hn : differences (toLower d) (toLower d') ≤ 3 ∨
      differences (toLower d) (toLower d') = 4 ∧ ((toLower d).head? = some 113 ↔ (toLower d').head? = some 113)) :
    ∀ b, parseAddress (p ++ [49] ++ d') strict' ≠ .ok b := by
  intro b h2
  have hinj : ∀ c : UInt8, lowerChar c = 49 ↔ c = 49 := Radix.forall_byte (by decide +kernel)
  have hno : ∀ t : Bytes, 49 ∉ t → 49 ∉ toLower t := by
    intro t ht hm
    obtain ⟨c, hc, he⟩ := List.mem_map.1 hm
    rw [hinj] at he
    subst he
    exact ht hc
  have hnog : ∀ g : List Nat, (∀ v ∈ g, v < 32) → (49 : UInt8) ∉ encodeGroups g := fun g hg hm =>
    (lower_base32 _ ((C33_base32 [] (by decide) g hg).2.2.1 _ hm)).2.2 rfl
  have cut : ∀ (d : Bytes) (st : Bool) (a : Address), 49 ∉ d → parseAddress (p ++ [49] ++ d) st = .ok a →
      a.prefix_ = toLower p ∧ (a.version = 0 ↔ (toLower d).head? = some 113) := by
    intro d st a hd h
    obtain ⟨-, -, g, hg, hs, -, -, -, h11, -, hc, hv, -, -⟩ := (C57_accepts _ _ _).1 h
    rw [toLower_append, toLower_append, show toLower [49] = [49] from rfl] at hs
    have k1 := splitLast_append 49 (toLower p) (toLower d) (hno _ hd)
    have k1' := splitLast_append 49 a.prefix_ (encodeGroups g) (hnog g hg)
    rw [hs, k1'] at k1
    injection k1 with k1
    injection k1 with kp kg
    refine ⟨kp, ?_⟩
    rw [← kg, ← hv]
    cases g with
    | nil => simp at h11
    | cons v g =>
      have hq : ∀ v < 32, v = 0 ↔ base32Chars.getD v 0 = 113 := by decide +kernel
      have := hq v (hg v (by simp))
      simp only [encodeGroups, List.map_cons, List.head?_cons, List.headD_cons, Option.some.injEq]
      exact this
  obtain ⟨k1, k2⟩ := cut d strict a hd h
  obtain ⟨k3, k4⟩ := cut d' strict' b hd' h2
  have hcat : ∀ t : Bytes, toLower (p ++ [49] ++ t) = (toLower p ++ [49]) ++ toLower t := by
    intro t; rw [toLower_append, toLower_append]; rfl
  have hlow : ∀ t : Bytes, (toLower t).length = t.length := fun t => List.length_map _
  have key := C78_distance _ _ strict strict' a b h h2 (by rw [k1, k3]) (by simp [hl]) (by
    rw [hcat, hcat]
    intro e
    exact h0 ((differences_zero _ _ (by rw [hlow, hlow, hl])).2 (List.append_cancel_left e)))
  rw [hcat, hcat, differences_append, k2, k4] at key
  rcases hn with hn | ⟨hn, hi⟩
  · omega
  · have := key.2 hi; omega

/-- Four is attained: a version zero and a taproot address of mainnet, both accepted in strict mode, that differ in four characters. So the
bounds cannot be improved, and their hypotheses are met. -/
theorem C78_tight : ∃ (s s' : Bytes) (a a' : Address), parseAddress s true = .ok a ∧ parseAddress s' true = .ok a' ∧ a.prefix_ = a'.prefix_ ∧
    s.length = s'.length ∧ differences (toLower s) (toLower s') = 4 ∧ a.version = 0 ∧ a'.version = 1 := by
  refine ⟨Radix.ascii "bc1qqqqqqqqqqqqqqqqqqqqqqqqqqqqqqqqqqqqqqqqqqqqqqqqqqqqqthqst8", Radix.ascii "bc1pqqqqqqqqqqqqkqqqqqqqqlqqqqqqqqqqqqqqqqqqqeqqqqqqqqqqthqst8",
    ⟨mainnet, 0, List.replicate 32 0⟩, ⟨mainnet, 1, pack32 ((List.replicate 12 0 ++ [22] ++ List.replicate 8 0 ++ [31] ++ List.replicate 19 0 ++ [25] ++ List.replicate 10 0))⟩, ?_⟩
  decide +kernel

/-- Non-vacuity of `C78_detects`: an accepted address, with three wrong characters, and with four of which none is the version. -/
example : let d := Radix.ascii "qqqqqqqqqqqqqqqqqqqqqqqqqqqqqqqqqqqqqqqqqqqqqqqqqqqqqthqst8"
    let e := Radix.ascii "pqqqqqqqqqqqqqqqqqqqqqqqqqqqqqqqqqqqqqqqqqqqqqqqqqqqqthqpp8"
    let f := Radix.ascii "qpppqqqqqqqqqqqqqqqqqqqqqqqqqqqqqqqqqqqqqqqqqqqqqqqqqthqsp8"
    parseAddress (mainnet ++ [49] ++ d) true = .ok ⟨mainnet, 0, List.replicate 32 0⟩ ∧ 49 ∉ d ∧ 49 ∉ e ∧ 49 ∉ f ∧ e.length = d.length ∧ f.length = d.length ∧
    differences (toLower d) (toLower e) = 3 ∧ differences (toLower d) (toLower f) = 4 ∧ (toLower d).head? = some 113 ∧ (toLower f).head? = some 113 := by
  decide +kernel

end Verif.Bech32
