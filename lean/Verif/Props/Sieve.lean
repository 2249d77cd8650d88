import Verif.Lemmas.Sieve
/-!
# C73: the screening filters have no false negatives

`sieve<S, L>` and `bloom<M, K>` are folded over a history of fingerprints; every fingerprint of the history is screened afterwards.
-/
namespace Verif.Filter

/-- `value` and `entropy` agree on the bits of `mask`. -/
def Agree (mask value entropy : Nat) : Prop := ∀ i, mask.testBit i = true → value.testBit i = entropy.testBit i

/-! ## bloom -/
namespace Bloom

/-- The bit that a fingerprint selects, as a number: the `k`th group of `select M` bits, modulo the size. -/
def bitOf (M k entropy : Nat) : Nat := entropy / 2 ^ (k * select M) % 2 ^ select M % M

theorem log_bound {M : Nat} (h0 : M ≠ 0) (h : M ≤ 64) : select M ≤ 6 ∧ M ≤ 2 ^ select M := by
  unfold select
  split
  · exact ⟨by decide, by simpa using by omega⟩
  · have h1 : 2 ^ Nat.log2 (M - 1) ≤ M - 1 := Nat.log2_self_le (by omega)
    have h2 : M - 1 < 2 ^ (Nat.log2 (M - 1) + 1) := Nat.lt_log2_self
    refine ⟨?_, by omega⟩
    by_contra hc
    have : 2 ^ 6 ≤ 2 ^ Nat.log2 (M - 1) := Nat.pow_le_pow_right (by decide) (by omega)
    omega

theorem getBit_eq {M : Nat} (h0 : M ≠ 0) (h : M ≤ 64) (k e : Nat) : getBit M k e = bitOf M k e ∧ bitOf M k e < width M := by
  obtain ⟨h6, hM⟩ := log_bound h0 h
  have hw := width_pos M
  have hlt : bitOf M k e < M := Nat.mod_lt _ (by omega)
  refine ⟨?_, Nat.lt_of_lt_of_le hlt (width_ge M h)⟩
  unfold getBit bitOf
  dsimp only
  rw [unmaskRight_eq _ _ (by omega), Nat.and_two_pow_sub_one_eq_mod, Nat.mod_mod_of_dvd _ (Nat.pow_dvd_pow 2 (by omega)), Nat.shiftRight_eq_div_pow]
  generalize e / 2 ^ (k * select M) = x
  have hp := Nat.two_pow_pos (select M)
  split
  · rfl
  · rename_i hm
    have := Nat.mod_lt x hp
    rw [Nat.mod_eq_of_lt (show x % 2 ^ select M < M by omega)]

theorem allClear_iff {M : Nat} (h0 : M ≠ 0) (h : M ≤ 64) (v e : Nat) : ∀ ks : List Nat,
    allClear M v e ks = true ↔ ∀ k ∈ ks, v.testBit (bitOf M k e) = false
  | [] => by simp [allClear]
  | k :: ks => by
    obtain ⟨h1, h2⟩ := getBit_eq h0 h k e
    unfold allClear
    rw [h1, getRight_eq _ _ _ h2, List.forall_mem_cons, ← allClear_iff h0 h v e ks]
    cases v.testBit (bitOf M k e) <;> simp

theorem screen_bits {M : Nat} (h0 : M ≠ 0) (h : M ≤ 64) (e : Nat) : ∀ (ks : List Nat) (v : Nat), v < 2 ^ width M →
    (ks.foldl (fun v k => setRight (width M) v (getBit M k e) false) v) < 2 ^ width M ∧
    ∀ i, (ks.foldl (fun v k => setRight (width M) v (getBit M k e) false) v).testBit i = true ↔
      v.testBit i = true ∧ ∀ k ∈ ks, i ≠ bitOf M k e
  | [], v, hv => ⟨hv, fun i => by simp⟩
  | k :: ks, v, hv => by
    obtain ⟨q1, q2⟩ := screen_bits h0 h e ks (setRight (width M) v (getBit M k e) false) (clear_lt _ _ _ _ hv)
    refine ⟨q1, fun i => ?_⟩
    rw [List.foldl_cons, q2 i, testBit_clear _ _ _ _ hv, (getBit_eq h0 h k e).1, List.forall_mem_cons]
    simp [and_assoc]

/-- The value after a history. -/
theorem history_bits {M K : Nat} (h0 : M ≠ 0) (hK : K ≠ 0) (h : M ≤ 64) : ∀ (es : List Nat) (v : Nat), v < 2 ^ width M →
    es.foldl (screen M K) v < 2 ^ width M ∧
    ∀ i, (es.foldl (screen M K) v).testBit i = true ↔ v.testBit i = true ∧ ∀ e ∈ es, ∀ k < K, i ≠ bitOf M k e
  | [], v, hv => ⟨hv, fun i => by simp⟩
  | e :: es, v, hv => by
    have hd : disabled M K = false := by simp [disabled, h0, hK]
    have one : screen M K v e < 2 ^ width M ∧ ∀ i, (screen M K v e).testBit i = true ↔ v.testBit i = true ∧ ∀ k < K, i ≠ bitOf M k e := by
      unfold screen
      rw [hd, if_neg (by decide)]
      split
      · rename_i hz; subst hz; exact ⟨hv, fun i => by simp⟩
      · obtain ⟨q1, q2⟩ := screen_bits h0 h e (List.range K) v hv
        refine ⟨q1, fun i => ?_⟩
        rw [q2 i]; simp
    obtain ⟨q1, q2⟩ := history_bits h0 hK h es _ one.1
    refine ⟨q1, fun i => ?_⟩
    rw [List.foldl_cons, q2 i, one.2 i, List.forall_mem_cons, and_assoc]

theorem empty_lt {M : Nat} (h : M ≤ 64) : empty M < 2 ^ width M := by
  unfold empty
  rw [unmaskRight_eq _ _ (width_ge M h)]
  have := Nat.pow_le_pow_right (show 0 < 2 by decide) (width_ge M h)
  have := Nat.two_pow_pos M
  omega

/-- **C73 (bloom, exactly).** For every enabled bloom of at most 64 bits and every history: a fingerprint is screened just when the history
is not empty and each bit that the fingerprint selects is selected by some fingerprint of the history. -/
theorem C73_bloom_exact (M K : Nat) (hM : M ≠ 0) (hK : K ≠ 0) (h : M ≤ 64) (history : List Nat) (f : Nat) :
    isScreened M K (history.foldl (screen M K) (empty M)) f = true ↔
      history ≠ [] ∧ ∀ k < K, ∃ e ∈ history, ∃ j < K, bitOf M j e = bitOf M k f := by
  obtain ⟨-, hb⟩ := history_bits hM hK h history (empty M) (empty_lt h)
  have he : ∀ i, (empty M).testBit i = decide (i < M) := fun i => testBit_unmaskRight _ _ _ (width_ge M h)
  have hd : disabled M K = false := by simp [disabled, hM, hK]
  have hlt : ∀ k e, bitOf M k e < M := fun k e => Nat.mod_lt _ (by omega)
  unfold isScreened
  rw [hd, if_neg (by decide)]
  split
  · rename_i heq
    refine ⟨fun x => absurd x (by decide), ?_⟩
    rintro ⟨hne, -⟩
    exfalso
    obtain ⟨e, es, rfl⟩ := List.exists_cons_of_ne_nil hne
    have := (hb (bitOf M 0 e)).1 (by rw [heq, he]; simpa using hlt 0 e)
    exact this.2 e List.mem_cons_self 0 (by omega) rfl
  · rename_i hne
    rw [allClear_iff hM h]
    have : history ≠ [] := by rintro rfl; exact hne rfl
    constructor
    · intro hk
      refine ⟨this, fun k hk' => ?_⟩
      by_contra hc
      have : (history.foldl (screen M K) (empty M)).testBit (bitOf M k f) = true := by
        rw [hb, he]
        refine ⟨by simpa using hlt k f, fun e hee j hj heq => hc ⟨e, hee, j, hj, heq.symm⟩⟩
      rw [hk k (List.mem_range.2 hk')] at this
      cases this
    · rintro ⟨-, hk⟩ k hk'
      obtain ⟨e, hee, j, hj, heq⟩ := hk k (List.mem_range.1 hk')
      rw [← Bool.not_eq_true, hb]
      rintro ⟨-, hx⟩
      exact hx e hee j hj heq.symm

/-- **C73 (bloom, no false negatives).** Every fingerprint of the history is screened, whatever the parameters. -/
theorem C73_bloom_no_false_negative (M K : Nat) (h : M ≤ 64) (history : List Nat) :
    ∀ e ∈ history, isScreened M K (history.foldl (screen M K) (empty M)) e = true := by
  intro e he
  by_cases hM : M = 0
  · simp [isScreened, disabled, hM]
  by_cases hK : K = 0
  · simp [isScreened, disabled, hK]
  rw [C73_bloom_exact M K hM hK h]
  exact ⟨List.ne_nil_of_mem he, fun k hk => ⟨e, he, k, hk, rfl⟩⟩

/-- **C73 (bloom, collision).** Adding changes an enabled bloom just when the fingerprint is not screened: `is_collision` of the value before and
after is `is_screened` before, for every reachable value. -/
theorem C73_bloom_collision (M K : Nat) (hM : M ≠ 0) (hK : K ≠ 0) (h : M ≤ 64) (history : List Nat) (f : Nat) :
    let v := history.foldl (screen M K) (empty M)
    isCollision v (screen M K v f) = isScreened M K v f := by
  intro v
  have he : ∀ i, (empty M).testBit i = decide (i < M) := fun i => testBit_unmaskRight _ _ _ (width_ge M h)
  have hlt : ∀ k e, bitOf M k e < M := fun k e => Nat.mod_lt _ (by omega)
  have hv : history.foldl (screen M K) (empty M) = v := rfl
  obtain ⟨-, hb⟩ := history_bits hM hK h history (empty M) (empty_lt h)
  obtain ⟨-, hn⟩ := history_bits hM hK h (history ++ [f]) (empty M) (empty_lt h)
  rw [List.foldl_append, hv] at hn
  simp only [List.foldl_cons, List.foldl_nil] at hn
  rw [hv] at hb
  rw [Bool.eq_iff_iff, ← hv, C73_bloom_exact M K hM hK h, hv]
  unfold isCollision
  rw [beq_iff_eq]
  constructor
  · intro e
    rw [e] at hn
    have key : ∀ k < K, ∃ e ∈ history, ∃ j < K, bitOf M j e = bitOf M k f := by
      intro k hk
      by_contra hc
      have h1 : v.testBit (bitOf M k f) = true := by
        rw [hb, he]
        exact ⟨by simpa using hlt k f, fun e hee j hj heq => hc ⟨e, hee, j, hj, heq.symm⟩⟩
      exact ((hn _).1 h1).2 f (by simp) k hk rfl
    refine ⟨?_, key⟩
    obtain ⟨e, hee, -⟩ := key 0 (by omega)
    exact List.ne_nil_of_mem hee
  · rintro ⟨-, key⟩
    apply Nat.eq_of_testBit_eq
    intro i
    rw [Bool.eq_iff_iff, hn, hb]
    constructor
    · rintro ⟨h1, h2⟩; exact ⟨h1, fun e hee => h2 e (List.mem_append_left _ hee)⟩
    · rintro ⟨h1, h2⟩
      refine ⟨h1, fun e hee k hk heq => ?_⟩
      rcases List.mem_append.1 hee with hh | hh
      · exact h2 e hh k hk heq
      · rw [List.mem_singleton] at hh
        subst hh
        obtain ⟨e', he', j, hj, hq⟩ := key k hk
        exact h2 e' he' j hj (heq.trans hq.symm)

end Bloom

/-! ## sieve -/
namespace Sieve

/-- The parameters the source can be used with: at most 64 bits, no more selector bits than bits, and row offsets that fit `type`
(`generate_offsets` saturates otherwise). `sieve<32, 4>`, `sieve<16, 4>`, `sieve<8, 4>` and every wider or less selective one are such. -/
structure Usable (S L : Nat) : Prop where
  select : L ≤ S
  bits : S ≤ 64
  fits : 2 ^ L * (2 ^ L - 1) < 2 ^ width S

section
variable {S L : Nat}

theorem Usable.limit (h : Usable S L) : limit L * (limit L + 1) < 2 ^ width S := by
  have := h.fits
  unfold Sieve.limit screens
  have hp := Nat.two_pow_pos L
  rw [Nat.sub_add_cancel hp, Nat.mul_comm]; exact this

theorem sb_le (h : Usable S L) : screenBits S L ≤ width S := Nat.le_trans (Nat.sub_le _ _) (width_ge S h.bits)

theorem sentinel_eq (h : Usable S L) (hsb : 0 < screenBits S L) : sentinel S L = screenBits S L - 1 := by
  have := h.bits
  unfold sentinel
  have h2 : screenBits S L ≤ S := Nat.sub_le _ _
  generalize screenBits S L = sb at *
  omega

/-- What is known of the masks. -/
theorem mask_facts (h : Usable S L) {r : Nat} (hr : r ≤ limit L) :
    (∀ c i, c ≤ r → (masks S L r c).testBit i = true → i < screenBits S L) ∧
    (∀ c d i, c ≤ r → d ≤ r → c ≠ d → ¬ ((masks S L r c).testBit i = true ∧ (masks S L r d).testBit i = true)) ∧
    (∀ c i, c < r → (masks S L r c).testBit i = true → (masks S L (r - 1) c).testBit i = true) ∧
    (∀ c i, r = limit L → c ≤ r → (masks S L r c).testBit i = true → i ≠ sentinel S L) ∧
    (∀ i, i < screenBits S L → (r = limit L → i ≠ sentinel S L) → ∃ c, c ≤ r ∧ (masks S L r c).testBit i = true) ∧
    (r < limit L → ∀ c, c ≤ r → onesCount (width S) (masks S L r c) = target (screenBits S L) r c) := by
  obtain ⟨p, hsz, -⟩ := rowF_part (width S) (screenBits S L) (sb_le h) r
  have hw : 2 ^ screenBits S L ≤ 2 ^ width S := Nat.pow_le_pow_right (by decide) (sb_le h)
  have bits : ∀ r', r' ≤ limit L → ∀ c i, c ≤ r' → (masks S L r' c).testBit i =
      ((rowF (width S) (screenBits S L) (2 ^ screenBits S L - 1) r' c).testBit i && (r' != limit L || i != sentinel S L)) := by
    intro r' hr' c i hc
    rw [masks_eq S L h.bits h.limit r' c hr' hc]
    have := (rowF_part (width S) (screenBits S L) (sb_le h) r').1.small c
    by_cases e : r' = limit L
    · rw [if_pos e, testBit_clear _ _ _ _ (by omega)]
      simp only [e, bne_self_eq_false, Bool.false_or]
      by_cases e2 : i = sentinel S L <;> simp [e2]
    · rw [if_neg e]
      simp [e]
  refine ⟨?_, ?_, ?_, ?_, ?_, ?_⟩
  · intro c i hc hb
    rw [bits r hr c i hc, Bool.and_eq_true] at hb
    by_contra hi
    rw [Nat.testBit_lt_two_pow (Nat.lt_of_lt_of_le (p.small c) (Nat.pow_le_pow_right (by decide) (by omega)))] at hb
    cases hb.1
  · intro c d i hc hd hcd hb
    rw [bits r hr c i hc, bits r hr d i hd, Bool.and_eq_true, Bool.and_eq_true] at hb
    exact p.apart c d i hcd ⟨hb.1.1, hb.2.1⟩
  · intro c i hc hb
    obtain ⟨r, rfl⟩ : ∃ q, r = q + 1 := ⟨r - 1, by omega⟩
    rw [bits _ hr c i (by omega), Bool.and_eq_true] at hb
    rw [Nat.add_sub_cancel, bits r (by omega) c i (by omega), Bool.and_eq_true]
    refine ⟨(rowF_part (width S) (screenBits S L) (sb_le h) r).2.2 c i (by omega) hb.1, ?_⟩
    have : r ≠ limit L := by omega
    simp [this]
  · intro c i e hc hb
    rw [bits r hr c i hc] at hb
    simp [e] at hb
    exact hb.2
  · intro i hi hs
    obtain ⟨c, hc, hb⟩ := p.cover i hi
    refine ⟨c, hc, ?_⟩
    rw [bits r hr c i hc, hb]
    by_cases e : r = limit L
    · have := hs e; simp [this]
    · simp [e]
  · intro hlt c hc
    rw [masks_eq S L h.bits h.limit r c hr hc, if_neg (by omega), hsz c hc]

theorem limit_pos (hL : L ≠ 0) : 0 < limit L := by
  unfold limit screens
  have : 2 ^ 1 ≤ 2 ^ L := Nat.pow_le_pow_right (by decide) (by omega)
  omega

theorem agree_iff (m v e w : Nat) (hm : ∀ i, m.testBit i = true → i < w) : (v &&& m) ^^^ (e % 2 ^ w &&& m) = 0 ↔ Agree m v e := by
  unfold Agree
  constructor
  · intro h i hi
    have := congrArg (·.testBit i) h
    simp only [Nat.testBit_xor, Nat.testBit_and, hi, Bool.and_true, Nat.testBit_mod_two_pow, hm i hi, decide_true, Bool.true_and, Nat.zero_testBit] at this
    revert this
    cases v.testBit i <;> cases e.testBit i <;> simp
  · intro h
    apply Nat.eq_of_testBit_eq
    intro i
    rw [Nat.testBit_xor, Nat.testBit_and, Nat.testBit_and, Nat.testBit_mod_two_pow, Nat.zero_testBit]
    cases hi : m.testBit i with
    | false => simp
    | true => simp [hm i hi, h i hi]

theorem anyMatch_iff (h : Usable S L) {r : Nat} (hr : r ≤ limit L) (v e : Nat) : ∀ cols : List Nat, (∀ c ∈ cols, c ≤ r) →
    (anyMatch S L r v e cols = true ↔ ∃ c ∈ cols, Agree (masks S L r c) v e)
  | [], _ => by simp [anyMatch]
  | c :: cols, hc => by
    have hm : ∀ i, (masks S L r c).testBit i = true → i < width S := fun i hi =>
      Nat.lt_of_lt_of_le ((mask_facts h hr).1 c i (hc c List.mem_cons_self) hi) (sb_le h)
    have ih := anyMatch_iff h hr v e cols (fun d hd => hc d (List.mem_cons_of_mem _ hd))
    unfold anyMatch
    have hex : (∃ d ∈ c :: cols, Agree (masks S L r d) v e) ↔ Agree (masks S L r c) v e ∨ ∃ d ∈ cols, Agree (masks S L r d) v e := by simp
    rw [hex]
    split
    · rename_i hz
      exact ⟨fun _ => Or.inl ((agree_iff _ _ _ _ hm).1 hz), fun _ => rfl⟩
    · rename_i hz
      rw [ih]
      exact ⟨Or.inr, fun x => x.resolve_left (fun y => hz ((agree_iff _ _ _ _ hm).2 y))⟩

theorem empty_eq (h : Usable S L) : empty S = 2 ^ S - 1 := unmaskRight_eq _ _ (width_ge S h.bits)

theorem pow_split (h : Usable S L) : 2 ^ S = 2 ^ L * 2 ^ screenBits S L := by
  rw [← Nat.pow_add]; congr 1; have := h.select; unfold screenBits; omega

theorem empty_row (h : Usable S L) : empty S >>> screenBits S L = limit L := by
  rw [empty_eq h, Nat.shiftRight_eq_div_pow, pow_split h]
  have hp := Nat.two_pow_pos (screenBits S L)
  have hl := Nat.two_pow_pos L
  unfold limit screens
  generalize 2 ^ screenBits S L = a at *
  generalize 2 ^ L = b at *
  obtain ⟨b, rfl⟩ : ∃ c, b = c + 1 := ⟨b - 1, by omega⟩
  rw [Nat.succ_mul, Nat.add_sub_assoc hp, Nat.add_comm, Nat.add_mul_div_right _ _ hp, Nat.div_eq_of_lt (by omega)]
  omega

theorem saturated_bit (h : Usable S L) (i : Nat) : (saturated S L).testBit i = (decide (i < S) && decide (sentinel S L ≤ i)) := by
  unfold saturated
  rw [Nat.testBit_and, testBit_maskRight, show (empty S).testBit i = decide (i < S) from testBit_unmaskRight _ _ _ (width_ge S h.bits)]
  by_cases h1 : i < S
  · have := width_ge S h.bits
    have h2 : i < width S := by omega
    simp [h1, h2]
  · simp [h1]

theorem saturated_row (h : Usable S L) (hsb : 0 < screenBits S L) : saturated S L >>> screenBits S L = limit L := by
  rw [← empty_row h]
  apply Nat.eq_of_testBit_eq
  intro i
  rw [Nat.testBit_shiftRight, Nat.testBit_shiftRight, saturated_bit h, sentinel_eq h hsb,
    show ∀ i, (empty S).testBit i = decide (i < S) from fun i => testBit_unmaskRight _ _ _ (width_ge S h.bits)]
  have : screenBits S L - 1 ≤ screenBits S L + i := by omega
  simp [this]

/-- A value in use: `row` screens, none of them the sentinels. -/
structure Live (S L row v : Nat) : Prop where
  inRange : row ≤ limit L
  value : v >>> screenBits S L = row
  bound : v < 2 ^ S
  open_ : row = limit L → 0 < screenBits S L ∧ v.testBit (sentinel S L) = false

theorem live_screened (h : Usable S L) (hL : L ≠ 0) {row v : Nat} (hv : Live S L row v) (e : Nat) :
    isScreened S L v e = true ↔ ∃ c, c ≤ row ∧ Agree (masks S L row c) v e := by
  have hd : disabled S L = false := by have := h.select; simp [disabled, hL]; omega
  have ne : row = limit L → v ≠ empty S ∧ v ≠ saturated S L := by
    intro e
    obtain ⟨hsb, hb⟩ := hv.open_ e
    have hs : screenBits S L ≤ S := Nat.sub_le _ _
    constructor
    · rintro rfl
      rw [show (empty S).testBit _ = decide (_ < S) from testBit_unmaskRight _ _ _ (width_ge S h.bits), sentinel_eq h hsb] at hb
      simp at hb; omega
    · rintro rfl
      rw [saturated_bit h, sentinel_eq h hsb] at hb
      simp at hb; omega
  unfold isScreened
  dsimp only
  rw [hd, if_neg (by decide), hv.value, if_neg (fun x => (ne x.1).1 x.2), if_neg (fun x => (ne x.1).2 x.2),
    anyMatch_iff h hv.inRange v e _ (fun c hc => by have := List.mem_range.1 hc; omega)]
  constructor
  · rintro ⟨c, hc, ha⟩; exact ⟨c, by have := List.mem_range.1 hc; omega, ha⟩
  · rintro ⟨c, hc, ha⟩; exact ⟨c, List.mem_range.2 (by omega), ha⟩

/-- The bits of a value with a new row. -/
theorem addRow_bits (h : Usable S L) {r : Nat} (hr : r ≤ limit L) (v f : Nat) (hnz : r = limit L → 0 < screenBits S L) :
    Live S L r (addRow S L v f r) ∧
    ∀ i, i < screenBits S L → (addRow S L v f r).testBit i =
      if (masks S L r r).testBit i then f.testBit i else (v.testBit i && !(decide (r = limit L) && decide (i = sentinel S L))) := by
  obtain ⟨m1, -, -, m4, -, -⟩ := mask_facts h hr
  have hw := width_ge S h.bits
  have hsb := sb_le h
  have hrow : r * 2 ^ screenBits S L < 2 ^ S := by
    rw [pow_split h]
    apply Nat.mul_lt_mul_of_pos_right _ (Nat.two_pow_pos _)
    have := Nat.two_pow_pos L
    unfold limit screens at hr; omega
  have hS : 2 ^ S ≤ 2 ^ width S := Nat.pow_le_pow_right (by decide) hw
  have hfm : ∀ i, (firstMask S L).testBit i = decide (i < screenBits S L) := fun i => testBit_unmaskRight _ _ _ hsb
  have hfl : bitNot (width S) (masks S L r r) &&& firstMask S L < 2 ^ width S := by
    apply Nat.lt_pow_two_of_testBit
    intro i hi
    rw [Nat.testBit_and, hfm]
    have : ¬ i < screenBits S L := by omega
    simp [this]
  -- the bits of the screen
  have low : ∀ i, (v &&& (if r = limit L then setRight (width S) (bitNot (width S) (masks S L r r) &&& firstMask S L) (sentinel S L) false
      else bitNot (width S) (masks S L r r) &&& firstMask S L) ||| f % 2 ^ width S &&& masks S L r r).testBit i =
      (decide (i < screenBits S L) && if (masks S L r r).testBit i then f.testBit i
        else (v.testBit i && !(decide (r = limit L) && decide (i = sentinel S L)))) := by
    intro i
    have hu : (if r = limit L then setRight (width S) (bitNot (width S) (masks S L r r) &&& firstMask S L) (sentinel S L) false
        else bitNot (width S) (masks S L r r) &&& firstMask S L).testBit i =
        (decide (i < screenBits S L) && !(masks S L r r).testBit i && !(decide (r = limit L) && decide (i = sentinel S L))) := by
      split
      · rename_i e
        rw [testBit_clear _ _ _ _ hfl, Nat.testBit_and, testBit_bitNot, hfm]
        by_cases h1 : i < screenBits S L
        · have h2 : i < width S := by omega
          cases (masks S L r r).testBit i <;> simp [h1, h2, e]
        · simp [h1]
      · rename_i e
        rw [Nat.testBit_and, testBit_bitNot, hfm]
        by_cases h1 : i < screenBits S L
        · have h2 : i < width S := by omega
          cases (masks S L r r).testBit i <;> simp [h1, h2, e]
        · simp [h1]
    rw [Nat.testBit_or, Nat.testBit_and, Nat.testBit_and, hu, Nat.testBit_mod_two_pow]
    cases hm : (masks S L r r).testBit i with
    | true =>
      have h1 := m1 r i (Nat.le_refl _) hm
      have h2 : i < width S := by omega
      simp [h1, h2]
    | false => cases v.testBit i <;> simp
  have hlow : (v &&& (if r = limit L then setRight (width S) (bitNot (width S) (masks S L r r) &&& firstMask S L) (sentinel S L) false
      else bitNot (width S) (masks S L r r) &&& firstMask S L) ||| f % 2 ^ width S &&& masks S L r r) < 2 ^ screenBits S L := by
    apply Nat.lt_pow_two_of_testBit
    intro i hi
    rw [low]
    have : ¬ i < screenBits S L := by omega
    simp [this]
  have hval : addRow S L v f r = r * 2 ^ screenBits S L + (v &&& (if r = limit L then setRight (width S) (bitNot (width S) (masks S L r r) &&& firstMask S L) (sentinel S L) false
      else bitNot (width S) (masks S L r r) &&& firstMask S L) ||| f % 2 ^ width S &&& masks S L r r) := by
    unfold addRow
    dsimp only
    rw [Nat.shiftLeft_eq, Nat.mod_eq_of_lt (by omega), ← Nat.shiftLeft_eq, Nat.shiftLeft_add_eq_or_of_lt hlow]
  obtain ⟨s, hs⟩ : ∃ s, s = (v &&& (if r = limit L then setRight (width S) (bitNot (width S) (masks S L r r) &&& firstMask S L) (sentinel S L) false
      else bitNot (width S) (masks S L r r) &&& firstMask S L) ||| f % 2 ^ width S &&& masks S L r r) := ⟨_, rfl⟩
  rw [← hs] at low hlow hval
  clear hs
  have hbit : ∀ i, i < screenBits S L → (addRow S L v f r).testBit i = s.testBit i := by
    intro i hi
    rw [hval, Nat.mul_comm, Nat.testBit_two_pow_mul_add _ hlow, if_pos hi]
  refine ⟨⟨hr, ?_, ?_, ?_⟩, ?_⟩
  · rw [hval, Nat.shiftRight_eq_div_pow, Nat.add_comm, Nat.add_mul_div_right _ _ (Nat.two_pow_pos _), Nat.div_eq_of_lt hlow, Nat.zero_add]
  · rw [hval, pow_split h]
    have : r + 1 ≤ 2 ^ L := by
      have := Nat.two_pow_pos L
      unfold limit screens at hr; omega
    have := Nat.mul_le_mul_right (2 ^ screenBits S L) this
    rw [Nat.succ_mul] at this
    omega
  · intro e
    have hp := hnz e
    have hse := sentinel_eq h hp
    refine ⟨hp, ?_⟩
    rw [hbit _ (by omega), low]
    have : (masks S L r r).testBit (sentinel S L) = false := by
      cases hm : (masks S L r r).testBit (sentinel S L) with
      | false => rfl
      | true => exact absurd rfl (m4 r _ e (Nat.le_refl _) hm)
    rw [this]
    simp [e]
  · intro i hi
    rw [hbit i hi, low]
    simp [hi]

/-- The values that a history of fingerprints leads to. -/
inductive Reached (S L : Nat) (v : Nat) (history : List Nat) : Prop
  | empty (hv : v = empty S) (hh : history = [])
  | saturated (hv : v = saturated S L) (hsb : 2 ≤ screenBits S L)
  | live (row : Nat) (hv : Live S L row v) (hh : ∀ e ∈ history, ∃ c, c ≤ row ∧ Agree (masks S L row c) v e)

theorem sat_ne_empty (h : Usable S L) (hsb : 2 ≤ screenBits S L) : saturated S L ≠ empty S := by
  intro e
  have := congrArg (·.testBit 0) e
  have hs : screenBits S L ≤ S := Nat.sub_le _ _
  simp only [saturated_bit h, sentinel_eq h (by omega : 0 < screenBits S L),
    show ∀ i, (empty S).testBit i = decide (i < S) from fun i => testBit_unmaskRight _ _ _ (width_ge S h.bits)] at this
  have h1 : 0 < S := by omega
  have h2 : ¬ screenBits S L - 1 ≤ 0 := by omega
  simp [h1, h2] at this

theorem sat_screened (h : Usable S L) (hL : L ≠ 0) (hsb : 2 ≤ screenBits S L) (e : Nat) : isScreened S L (saturated S L) e = true := by
  have hd : disabled S L = false := by have := h.select; simp [disabled, hL]; omega
  unfold isScreened
  dsimp only
  rw [hd, if_neg (by decide), saturated_row h (by omega), if_neg (fun x => sat_ne_empty h hsb x.2), if_pos ⟨rfl, rfl⟩]

theorem empty_screened (h : Usable S L) (hL : L ≠ 0) (e : Nat) : isScreened S L (empty S) e = false := by
  have hd : disabled S L = false := by have := h.select; simp [disabled, hL]; omega
  unfold isScreened
  dsimp only
  rw [hd, if_neg (by decide), empty_row h, if_pos ⟨rfl, rfl⟩]

/-- At the last row with at most one screen bit every mask is empty. -/
theorem last_row_wide (h : Usable S L) (hL : L ≠ 0) {v : Nat} (hv : Live S L (limit L) v) {f : Nat} (hf : isScreened S L v f = false) :
    2 ≤ screenBits S L := by
  by_contra hc
  obtain ⟨hp, -⟩ := hv.open_ rfl
  have : isScreened S L v f = true := by
    rw [live_screened h hL hv]
    refine ⟨0, Nat.zero_le _, ?_⟩
    intro i hi
    obtain ⟨m1, -, -, m4, -, -⟩ := mask_facts h (Nat.le_refl (limit L))
    have h1 := m1 0 i (Nat.zero_le _) hi
    have h2 := m4 0 i rfl (Nat.zero_le _) hi
    rw [sentinel_eq h hp] at h2
    omega
  rw [this] at hf; cases hf

/-- One fingerprint more: the value, and whether it changes. -/
theorem step (h : Usable S L) (hL : L ≠ 0) {v : Nat} {history : List Nat} (hv : Reached S L v history) (f : Nat) :
    Reached S L (screen S L v f) (history ++ [f]) ∧ (isScreened S L v f = true → screen S L v f = v) ∧
    (isScreened S L v f = false → screen S L v f ≠ v) := by
  have hd : disabled S L = false := by have := h.select; simp [disabled, hL]; omega
  have hlp := limit_pos hL
  cases hv with
  | empty hv hh =>
    subst hv hh
    have e1 : screen S L (empty S) f = addRow S L (empty S) f 0 := by
      unfold screen
      dsimp only
      rw [hd, if_neg (by decide), empty_row h, if_pos rfl, if_pos rfl]
    obtain ⟨lv, lb⟩ := addRow_bits h (Nat.zero_le _) (empty S) f (by omega)
    rw [e1, empty_screened h hL]
    refine ⟨.live 0 lv ?_, fun x => absurd x (by decide), fun _ e => ?_⟩
    · intro e he
      rw [List.nil_append, List.mem_singleton] at he
      subst he
      refine ⟨0, Nat.le_refl _, fun i hi => ?_⟩
      rw [lb i ((mask_facts h (Nat.zero_le _)).1 0 i (Nat.le_refl _) hi), if_pos hi]
    · have := lv.value
      rw [e, empty_row h] at this
      omega
  | saturated hv hsb =>
    subst hv
    have e1 : screen S L (saturated S L) f = saturated S L := by
      unfold screen
      dsimp only
      rw [hd, if_neg (by decide), saturated_row h (by omega), if_pos rfl, if_neg (sat_ne_empty h hsb), sat_screened h hL hsb]
      rfl
    rw [e1, sat_screened h hL hsb]
    exact ⟨.saturated rfl hsb, fun _ => rfl, fun x => by cases x⟩
  | live row hv hh =>
    have hne : row = limit L → v ≠ empty S := by
      rintro e rfl
      obtain ⟨hsb, hb⟩ := hv.open_ e
      have hs : screenBits S L ≤ S := Nat.sub_le _ _
      rw [show (empty S).testBit _ = decide (_ < S) from testBit_unmaskRight _ _ _ (width_ge S h.bits), sentinel_eq h hsb] at hb
      simp at hb; omega
    cases hs : isScreened S L v f with
    | true =>
      have e1 : screen S L v f = v := by
        unfold screen
        dsimp only
        rw [hd, if_neg (by decide), hv.value, hs]
        by_cases e : row = limit L
        · rw [if_pos e, if_neg (hne e)]; rfl
        · rw [if_neg e]; rfl
      rw [e1]
      refine ⟨.live row hv ?_, fun _ => rfl, fun x => by cases x⟩
      intro e he
      rcases List.mem_append.1 he with he | he
      · exact hh e he
      · rw [List.mem_singleton] at he
        subst he
        exact (live_screened h hL hv e).1 hs
    | false =>
      by_cases e : row = limit L
      · have e1 : screen S L v f = saturated S L := by
          unfold screen
          dsimp only
          rw [hd, if_neg (by decide), hv.value, hs, if_pos e, if_neg (hne e)]; rfl
        have h2 := last_row_wide h hL (e ▸ hv) hs
        rw [e1]
        refine ⟨.saturated rfl h2, fun x => absurd x (by decide), fun _ x => ?_⟩
        rw [← x, sat_screened h hL h2] at hs
        cases hs
      · have hr : row + 1 ≤ limit L := by have := hv.inRange; omega
        have e1 : screen S L v f = addRow S L v f (row + 1) := by
          unfold screen
          dsimp only
          rw [hd, if_neg (by decide), hv.value, hs, if_neg e]; rfl
        have hsb : 0 < screenBits S L := by
          by_contra hc
          have : isScreened S L v f = true := by
            rw [live_screened h hL hv]
            refine ⟨0, Nat.zero_le _, fun i hi => ?_⟩
            have := (mask_facts h hv.inRange).1 0 i (Nat.zero_le _) hi
            omega
          rw [this] at hs; cases hs
        obtain ⟨lv, lb⟩ := addRow_bits h hr v f (fun _ => hsb)
        obtain ⟨m1, m2, m3, m4, -, -⟩ := mask_facts h hr
        rw [e1]
        refine ⟨.live (row + 1) lv ?_, fun x => absurd x (by decide), fun _ x => ?_⟩
        · intro g hg
          rcases List.mem_append.1 hg with hg | hg
          · obtain ⟨c, hc, ha⟩ := hh g hg
            refine ⟨c, by omega, fun i hi => ?_⟩
            have hi' := m1 c i (by omega) hi
            have hnot : (masks S L (row + 1) (row + 1)).testBit i = false := by
              cases hm : (masks S L (row + 1) (row + 1)).testBit i with
              | false => rfl
              | true => exact absurd ⟨hi, hm⟩ (m2 c (row + 1) i (by omega) (Nat.le_refl _) (by omega))
            have hprev := m3 c i (by omega) hi
            rw [Nat.add_sub_cancel] at hprev
            rw [lb i hi', hnot, ← ha i hprev]
            by_cases e2 : row + 1 = limit L
            · have := m4 c i e2 (by omega) hi
              simp [this]
            · simp [e2]
          · rw [List.mem_singleton] at hg
            subst hg
            refine ⟨row + 1, Nat.le_refl _, fun i hi => ?_⟩
            rw [lb i (m1 _ i (Nat.le_refl _) hi), if_pos hi]
        · have h1 := lv.value
          rw [x, hv.value] at h1
          omega

theorem reached (h : Usable S L) (hL : L ≠ 0) (history : List Nat) : Reached S L (history.foldl (screen S L) (empty S)) history := by
  have : ∀ (more : List Nat) (v : Nat) (past : List Nat), Reached S L v past → Reached S L (more.foldl (screen S L) v) (past ++ more) := by
    intro more
    induction more with
    | nil => intro v past hv; rw [List.append_nil]; exact hv
    | cons f more ih =>
      intro v past hv
      rw [List.foldl_cons, show past ++ f :: more = (past ++ [f]) ++ more by simp]
      exact ih _ _ (step h hL hv f).1
  exact this history _ [] (.empty rfl rfl)

end

/-- **C73 (sieve, no false negatives).** Whatever the usable parameters and the history of fingerprints, every fingerprint of the history is
screened by the sieve that results. -/
theorem C73_sieve_no_false_negative (S L : Nat) (h : Usable S L) (history : List Nat) :
    ∀ e ∈ history, isScreened S L (history.foldl (screen S L) (empty S)) e = true := by
  intro e he
  by_cases hL : L = 0
  · simp [isScreened, disabled, hL]
  cases reached h hL history with
  | empty hv hh => subst hh; cases he
  | saturated hv hsb => rw [hv]; exact sat_screened h hL hsb e
  | live row hv hh => exact (live_screened h hL hv e).2 (hh e he)

/-- **C73 (sieve, adding).** For every reachable value of an enabled sieve, adding a fingerprint changes the value just when the fingerprint was
not screened; so `is_collision` of the values before and after holds just when the fingerprint was screened or the sieve is saturated, and a
fingerprint of the history always collides. An empty sieve screens nothing. -/
theorem C73_sieve_adding (S L : Nat) (h : Usable S L) (hL : L ≠ 0) (history : List Nat) (f : Nat) :
    let v := history.foldl (screen S L) (empty S)
    (screen S L v f = v ↔ isScreened S L v f = true) ∧
    (isCollision S L v (screen S L v f) = true ↔ isScreened S L v f = true ∨ screen S L v f = saturated S L) ∧
    (f ∈ history → isCollision S L v (screen S L v f) = true) ∧
    isScreened S L (empty S) f = false := by
  intro v
  obtain ⟨-, s1, s2⟩ := step h hL (reached h hL history) f
  have key : screen S L v f = v ↔ isScreened S L v f = true := by
    refine ⟨fun e => ?_, s1⟩
    cases hs : isScreened S L v f with
    | true => rfl
    | false => exact absurd e (s2 hs)
  have coll : isCollision S L v (screen S L v f) = true ↔ isScreened S L v f = true ∨ screen S L v f = saturated S L := by
    unfold isCollision
    rw [Bool.or_eq_true, beq_iff_eq, beq_iff_eq, key]
  exact ⟨key, coll, fun hf => coll.2 (Or.inl (C73_sieve_no_false_negative S L h history f hf)), empty_screened h hL f⟩

/-- **C73 (sieve, one fingerprint).** After one fingerprint just the fingerprints with the same screen bits are screened. -/
theorem C73_sieve_one (S L : Nat) (h : Usable S L) (hL : L ≠ 0) (e f : Nat) :
    isScreened S L (screen S L (empty S) e) f = true ↔ e % 2 ^ (S - L) = f % 2 ^ (S - L) := by
  have hd : disabled S L = false := by have := h.select; simp [disabled, hL]; omega
  have hlp := limit_pos hL
  have e1 : screen S L (empty S) e = addRow S L (empty S) e 0 := by
    unfold screen
    dsimp only
    rw [hd, if_neg (by decide), empty_row h, if_pos rfl, if_pos rfl]
  obtain ⟨lv, lb⟩ := addRow_bits h (Nat.zero_le _) (empty S) e (by omega)
  obtain ⟨m1, -, -, -, m5, -⟩ := mask_facts h (Nat.zero_le (limit L))
  have hm : ∀ i, (masks S L 0 0).testBit i = true ↔ i < screenBits S L := by
    intro i
    refine ⟨m1 0 i (Nat.le_refl _), fun hi => ?_⟩
    obtain ⟨c, hc, hb⟩ := m5 i hi (fun x => absurd x (by omega))
    obtain rfl : c = 0 := by omega
    exact hb
  rw [e1, live_screened h hL lv]
  constructor
  · rintro ⟨c, hc, ha⟩
    obtain rfl : c = 0 := by omega
    apply Nat.eq_of_testBit_eq
    intro i
    rw [Nat.testBit_mod_two_pow, Nat.testBit_mod_two_pow]
    by_cases hi : i < S - L
    · have := ha i ((hm i).2 hi)
      rw [lb i hi, if_pos ((hm i).2 hi)] at this
      rw [this]
    · simp [hi]
  · intro heq
    refine ⟨0, Nat.le_refl _, fun i hi => ?_⟩
    have hi' := (hm i).1 hi
    rw [lb i hi', if_pos hi]
    have := congrArg (·.testBit i) heq
    have hi2 : i < S - L := hi'
    simpa only [Nat.testBit_mod_two_pow, hi2, decide_true, Bool.true_and] using this

/-- **C73 (sieve, screens).** With `row + 1` screens in use the screen bits are split between them: no two screens share a bit, every bit is in a
screen, and the screens differ by at most one bit in size (the first `screen bits mod (row + 1)` are the larger). In the last row the sentinel bit
is in no screen. -/
theorem C73_sieve_screens (S L : Nat) (h : Usable S L) (row : Nat) (hr : row ≤ limit L) :
    (∀ c d i, c ≤ row → d ≤ row → c ≠ d → ¬ ((masks S L row c).testBit i = true ∧ (masks S L row d).testBit i = true)) ∧
    (∀ i, (∃ c, c ≤ row ∧ (masks S L row c).testBit i = true) ↔ i < S - L ∧ (row = 2 ^ L - 1 → i + 1 ≠ S - L)) ∧
    (row < 2 ^ L - 1 → ∀ c, c ≤ row → onesCount (width S) (masks S L row c) = (S - L) / (row + 1) + if c < (S - L) % (row + 1) then 1 else 0) := by
  obtain ⟨m1, m2, m3, m4, m5, m6⟩ := mask_facts h hr
  have hs : ∀ i, i < screenBits S L → (i = sentinel S L ↔ i + 1 = S - L) := by
    intro i hi
    rw [sentinel_eq h (by omega)]
    unfold screenBits at *
    omega
  refine ⟨m2, fun i => ⟨?_, ?_⟩, m6⟩
  · rintro ⟨c, hc, hb⟩
    have hi := m1 c i hc hb
    exact ⟨hi, fun e x => m4 c i e hc hb ((hs i hi).2 x)⟩
  · rintro ⟨hi, hx⟩
    exact m5 i hi (fun e x => hx e ((hs i hi).1 x))

/-- The parameters used by libbitcoin-database, and a history that fills two screens and adds a duplicate. -/
example : Usable 32 4 := ⟨by decide, by decide, by decide⟩
example : Usable 16 4 ∧ Usable 8 4 ∧ Usable 64 8 ∧ Usable 1 1 := ⟨⟨by decide, by decide, by decide⟩, ⟨by decide, by decide, by decide⟩,
  ⟨by decide, by decide, by decide⟩, ⟨by decide, by decide, by decide⟩⟩
example : isScreened 8 2 ([1, 6, 1].foldl (screen 8 2) (empty 8)) 6 = true ∧
    isScreened 8 2 ([1, 6, 1].foldl (screen 8 2) (empty 8)) 8 = false ∧
    [1, 6, 1].foldl (screen 8 2) (empty 8) ≠ saturated 8 2 := by decide +kernel

end Sieve

namespace Bloom
example : isScreened 32 3 ([0x1234567, 0x89abcdef].foldl (screen 32 3) (empty 32)) 0x1234567 = true ∧
    isScreened 32 3 ([0x1234567, 0x89abcdef].foldl (screen 32 3) (empty 32)) 0 = false := by decide +kernel
end Bloom
end Verif.Filter
