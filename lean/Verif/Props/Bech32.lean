import Verif.Model.Bech32
import Verif.Props.Pack
/-!
# C35: bech32 checksums; C57: witness addresses
-/
namespace Verif.Bech32
open Verif Verif.Pack

/-! ## Linearity of the checksum -/

def shift (c : Nat) : Nat := ((c &&& 0x01ffffff) <<< 5) % 2 ^ 32

def step (c : Nat) : Nat := shift c ^^^ feedback (c >>> 25)

theorem round_eq (c v : Nat) : round c v = step c ^^^ v := by
  unfold round step shift
  rw [Nat.xor_assoc, Nat.xor_comm v, ← Nat.xor_assoc]

theorem shift_xor (a b : Nat) : shift (a ^^^ b) = shift a ^^^ shift b := by
  unfold shift
  rw [Nat.and_xor_distrib_right, Nat.shiftLeft_xor_distrib, Nat.xor_mod_two_pow]

theorem feedback_xor_fin : ∀ a < 32, ∀ b < 32, feedback (a ^^^ b) = feedback a ^^^ feedback b := by decide +kernel

theorem feedback_mod (a : Nat) : feedback a = feedback (a % 32) := by
  have key : ∀ k < 5, (a &&& 2 ^ k ≠ 0) = ((a % 32) &&& 2 ^ k ≠ 0) := by
    intro k hk
    have : a &&& 2 ^ k = (a % 32) &&& 2 ^ k := by
      apply Nat.eq_of_testBit_eq
      intro i
      rw [Nat.testBit_and, Nat.testBit_and, show (32 : Nat) = 2 ^ 5 from rfl, Nat.testBit_mod_two_pow, Nat.testBit_two_pow]
      by_cases h : k = i
      · subst h; simp [hk]
      · simp [h]
    rw [this]
  have h0 := key 0 (by decide)
  have h1 := key 1 (by decide)
  have h2 := key 2 (by decide)
  have h3 := key 3 (by decide)
  have h4 := key 4 (by decide)
  unfold feedback
  simp only [show (2:Nat)^0 = 0x01 from rfl, show (2:Nat)^1 = 0x02 from rfl, show (2:Nat)^2 = 0x04 from rfl, show (2:Nat)^3 = 0x08 from rfl, show (2:Nat)^4 = 0x10 from rfl] at h0 h1 h2 h3 h4
  simp only [h0, h1, h2, h3, h4]

theorem feedback_xor (a b : Nat) : feedback (a ^^^ b) = feedback a ^^^ feedback b := by
  rw [feedback_mod, feedback_mod a, feedback_mod b, show (32 : Nat) = 2 ^ 5 from rfl, Nat.xor_mod_two_pow]
  exact feedback_xor_fin _ (Nat.mod_lt _ (by decide)) _ (Nat.mod_lt _ (by decide))

theorem step_xor (a b : Nat) : step (a ^^^ b) = step a ^^^ step b := by
  unfold step
  rw [shift_xor, Nat.shiftRight_xor_distrib, feedback_xor]
  ac_rfl

theorem feedback_lt : ∀ k < 32, feedback k < 2 ^ 30 := by decide +kernel

theorem shift_eq (c : Nat) : shift c = c % 2 ^ 25 * 32 := by
  unfold shift
  rw [show (0x01ffffff : Nat) = 2 ^ 25 - 1 from rfl, Nat.and_two_pow_sub_one_eq_mod, Nat.shiftLeft_eq]
  have := Nat.mod_lt c (show 0 < 2 ^ 25 by decide)
  rw [Nat.mod_eq_of_lt (by omega)]

theorem step_lt {c : Nat} (h : c < 2 ^ 30) : step c < 2 ^ 30 := by
  unfold step
  refine Nat.xor_lt_two_pow ?_ (feedback_lt _ ?_)
  · rw [shift_eq]
    have := Nat.mod_lt c (show 0 < 2 ^ 25 by decide)
    omega
  · rw [Nat.shiftRight_eq_div_pow]; omega

theorem feedback_low : ∀ k < 32, feedback k % 32 = 0 → k = 0 := by decide +kernel

theorem xor_eq_zero {a b : Nat} (h : a ^^^ b = 0) : a = b := by
  have := congrArg (· ^^^ b) h
  simpa [Nat.xor_assoc] using this

theorem step_zero {c : Nat} (h : c < 2 ^ 30) (h0 : step c = 0) : c = 0 := by
  have he := xor_eq_zero h0
  have hk : c >>> 25 < 32 := by rw [Nat.shiftRight_eq_div_pow]; omega
  have h1 := feedback_low _ hk (by rw [← he, shift_eq, Nat.mul_mod_left])
  rw [h1, shift_eq] at he
  have hf : feedback 0 = 0 := by decide +kernel
  rw [hf] at he
  rw [Nat.shiftRight_eq_div_pow] at h1
  omega

theorem step_small {c : Nat} (h : c < 2 ^ 25) : step c = c * 32 := by
  unfold step
  rw [shift_eq, Nat.shiftRight_eq_div_pow, Nat.div_eq_of_lt h, Nat.mod_eq_of_lt h]
  have hf : feedback 0 = 0 := by decide +kernel
  rw [hf, Nat.xor_zero]

/-- The fold from any state. -/
def run (c : Nat) (d : List Nat) : Nat := d.foldl round c

theorem run_append (c : Nat) (a b : List Nat) : run c (a ++ b) = run (run c a) b := List.foldl_append

theorem run_cons (c v : Nat) (d : List Nat) : run c (v :: d) = run (step c ^^^ v) d := by
  show run (round c v) d = _
  rw [round_eq]

theorem run_xor : ∀ (d e : List Nat) (a b : Nat), d.length = e.length → run (a ^^^ b) (List.zipWith (· ^^^ ·) d e) = run a d ^^^ run b e
  | [], [], _, _, _ => rfl
  | x :: d, y :: e, a, b, h => by
    rw [List.zipWith_cons_cons, run_cons, run_cons, run_cons, ← run_xor d e _ _ (by simpa using h), step_xor]
    congr 1
    ac_rfl

theorem run_lt : ∀ (d : List Nat) (c : Nat), c < 2 ^ 30 → (∀ v ∈ d, v < 32) → run c d < 2 ^ 30
  | [], _, h, _ => h
  | v :: d, c, h, hd => by
    rw [run_cons]
    exact run_lt d _ (Nat.xor_lt_two_pow (step_lt h) (by have := hd v (by simp); omega)) (fun w hw => hd w (by simp [hw]))

theorem run_zeros_ne : ∀ (n c : Nat), c < 2 ^ 30 → c ≠ 0 → run c (List.replicate n 0) ≠ 0
  | 0, _, _, h => h
  | n + 1, c, h, h0 => by
    rw [List.replicate_succ, run_cons, Nat.xor_zero]
    exact run_zeros_ne n _ (step_lt h) (fun hh => h0 (step_zero h hh))

theorem run_zero_zeros (n : Nat) : run 0 (List.replicate n 0) = 0 := by
  induction n with
  | zero => rfl
  | succ n ih => rw [List.replicate_succ, run_cons]; exact ih

/-- A run of zeros splits off from the data by linearity. -/
theorem run_split (c : Nat) (d : List Nat) : run c d = run c (List.replicate d.length 0) ^^^ run 0 d := by
  rw [← run_xor _ _ _ _ (by simp), Nat.xor_zero]
  congr 1
  induction d with
  | nil => rfl
  | cons v d ih => rw [List.length_cons, List.replicate_succ, List.zipWith_cons_cons, ← ih, Nat.zero_xor]

theorem checksum_eq (d : List Nat) : checksum d = run 1 d := rfl

theorem expand_run {c : Nat} (h : c < 2 ^ 30) : run 0 (expandChecksum c) = c := by
  have aux : ∀ s v : Nat, s < 2 ^ 25 → v < 32 → step s ^^^ v = s * 32 + v := by
    intro s v hs hv
    rw [step_small hs]
    have := Nat.two_pow_add_eq_or_of_lt (i := 5) (b := v) hv s
    rw [show s * 32 = 2 ^ 5 * s by omega, this]
    apply Nat.eq_of_testBit_eq
    intro i
    rw [Nat.testBit_xor, Nat.testBit_or]
    by_cases hi : i < 5
    · have : (2 ^ 5 * s).testBit i = false := by
        rw [Nat.testBit_two_pow_mul]; simp; omega
      rw [this]; simp
    · have : v.testBit i = false := Nat.testBit_lt_two_pow (Nat.lt_of_lt_of_le hv (Nat.pow_le_pow_right (n := 2) (by decide) (show 5 ≤ i by omega)))
      rw [this]; simp
  unfold expandChecksum
  simp only [run_cons, Nat.shiftRight_eq_div_pow]
  have hs0 : step 0 = 0 := by decide +kernel
  rw [hs0, Nat.zero_xor]
  rw [aux (c / 2 ^ 25 % 32) _ (by omega) (by omega), aux (c / 2 ^ 25 % 32 * 32 + c / 2 ^ 20 % 32) _ (by omega) (by omega),
    aux ((c / 2 ^ 25 % 32 * 32 + c / 2 ^ 20 % 32) * 32 + c / 2 ^ 15 % 32) _ (by omega) (by omega),
    aux (((c / 2 ^ 25 % 32 * 32 + c / 2 ^ 20 % 32) * 32 + c / 2 ^ 15 % 32) * 32 + c / 2 ^ 10 % 32) _ (by omega) (by omega),
    aux ((((c / 2 ^ 25 % 32 * 32 + c / 2 ^ 20 % 32) * 32 + c / 2 ^ 15 % 32) * 32 + c / 2 ^ 10 % 32) * 32 + c / 2 ^ 5 % 32) _ (by omega) (by omega)]
  show (((((c / 2 ^ 25 % 32 * 32 + c / 2 ^ 20 % 32) * 32 + c / 2 ^ 15 % 32) * 32 + c / 2 ^ 10 % 32) * 32 + c / 2 ^ 5 % 32) * 32 + c / 2 ^ 0 % 32) = c
  omega

theorem expandPrefix_lt (p : Bytes) : ∀ v ∈ expandPrefix p, v < 32 := by
  intro v hv
  unfold expandPrefix at hv
  simp only [List.mem_append, List.mem_map, List.mem_singleton] at hv
  rcases hv with (⟨c, _, rfl⟩ | rfl) | ⟨c, _, rfl⟩
  · exact Nat.mod_lt _ (by decide)
  · decide
  · exact Nat.mod_lt _ (by decide)

theorem constant_lt (v : Nat) : constant v < 2 ^ 30 := by unfold constant; split <;> decide

/-- Appending the checksum verifies, for any data, prefix and version. -/
theorem append_verifies (data : List Nat) (hd : ∀ v ∈ data, v < 32) (p : Bytes) (version : Nat) :
    verifyChecksum (appendChecksum data p version) p version = true := by
  unfold verifyChecksum appendChecksum
  rw [beq_iff_eq, checksum_eq, checksum_eq, ← List.append_assoc, run_append, run_append _ _ (List.replicate 6 0)]
  have h1 : run 1 (expandPrefix p ++ data) < 2 ^ 30 :=
    run_lt _ _ (by decide) (fun v hv => (List.mem_append.1 hv).elim (expandPrefix_lt p v) (hd v))
  generalize run 1 (expandPrefix p ++ data) = s at h1
  have hr : run s (List.replicate 6 0) < 2 ^ 30 := run_lt _ _ h1 (fun v hv => by rw [List.eq_of_mem_replicate hv]; decide)
  rw [run_split, expand_run (Nat.xor_lt_two_pow hr (constant_lt _))]
  show run s (List.replicate 6 0) ^^^ _ = _
  rw [← Nat.xor_assoc, Nat.xor_self, Nat.zero_xor]

theorem verify_built_length (data : List Nat) (p : Bytes) (v : Nat) : (appendChecksum data p v).length = data.length + 6 := by
  unfold appendChecksum; simp [expandChecksum]

/-- **C35**: a built checksum always verifies and gives back the version and the program. -/
theorem C35_built (version : Nat) (hv : version < 32) (program p : Bytes) (hp : program.length ≤ maxSize) :
    verifyChecked p (buildChecked version program p) = some (version, program) := by
  unfold verifyChecked buildChecked
  simp only [if_neg (show ¬ 32 ≤ version by omega)]
  have hl := verify_built_length (version :: unpack32 program) p version
  rw [if_neg (by rw [hl, List.length_cons]; omega)]
  have hh : (appendChecksum (version :: unpack32 program) p version).headD 0 = version := rfl
  rw [hh, append_verifies _ ?_ p version, if_pos rfl, hl]
  · congr 2
    unfold appendChecksum
    rw [List.cons_append, List.drop_succ_cons, List.drop_zero, List.take_append_of_le_length (by simp), List.take_of_length_le (by simp)]
    exact C34_roundtrip32 program hp
  · intro v hv'
    rcases List.mem_cons.1 hv' with rfl | h
    · exact hv
    · exact (C34_unpack32 program hp).1 v h

/-- The checksum of a list verifies exactly if BIP173's (version 0) or BIP350's (other versions) constant results. -/
theorem C35_constant (p : Bytes) (checked : List Nat) : (verifyChecked p checked).isSome = true ↔
    7 ≤ checked.length ∧ checksum (expandPrefix p ++ checked) = if checked.headD 0 = 0 then 1 else 0x2bc830a3 := by
  unfold verifyChecked verifyChecksum constant
  by_cases h : checked.length < 1 + 6
  · rw [if_pos h]
    exact ⟨(fun h => nomatch h), fun hh => by omega⟩
  · rw [if_neg h]
    by_cases h2 : checksum (expandPrefix p ++ checked) = if checked.headD 0 = 0 then 1 else 0x2bc830a3
    · rw [if_pos (by rw [beq_iff_eq]; exact h2)]
      exact ⟨fun _ => ⟨by omega, h2⟩, fun _ => rfl⟩
    · rw [if_neg (by rw [beq_iff_eq]; exact h2)]
      exact ⟨(fun h => nomatch h), fun hh => absurd hh.2 h2⟩

/-! ### Single errors -/

def iter (n c : Nat) : Nat := run c (List.replicate n 0)

theorem iter_succ (n c : Nat) : iter (n + 1) c = iter n (step c) := by
  unfold iter; rw [List.replicate_succ, run_cons, Nat.xor_zero]

theorem iter_add (m n c : Nat) : iter (m + n) c = iter n (iter m c) := by
  unfold iter; rw [← List.replicate_append_replicate, run_append]

/-- The 1023 states reached from a single group by zeros, other than the difference of the two constants; back to the start. -/
def orbitOk : Nat → Nat → Bool
  | 0, _ => true
  | n + 1, c => c != (1 ^^^ 0x2bc830a3) && orbitOk n (step c)

theorem orbit_ok : ∀ d < 32, orbitOk 1023 d = true := by decide +kernel

theorem orbit_period : ∀ d < 32, iter 1023 d = d := by decide +kernel

theorem orbitOk_iter : ∀ (n c m : Nat), orbitOk n c = true → m < n → iter m c ≠ (1 ^^^ 0x2bc830a3)
  | 0, _, _, _, h => absurd h (Nat.not_lt_zero _)
  | n + 1, c, 0, h, _ => by
    unfold orbitOk at h
    rw [Bool.and_eq_true, bne_iff_ne] at h
    exact h.1
  | n + 1, c, m + 1, h, hm => by
    unfold orbitOk at h
    rw [Bool.and_eq_true] at h
    rw [iter_succ]
    exact orbitOk_iter n _ m h.2 (by omega)

theorem iter_ne_const {d : Nat} (hd : d < 32) (n : Nat) : iter n d ≠ (1 ^^^ 0x2bc830a3) := by
  have h : ∀ q, iter (1023 * q) d = d := by
    intro q
    induction q with
    | zero => rfl
    | succ q ih => rw [Nat.mul_succ, iter_add, ih, orbit_period d hd]
  rw [← Nat.div_add_mod n 1023, iter_add, h]
  exact orbitOk_iter 1023 d _ (orbit_ok d hd) (Nat.mod_lt _ (by decide))

/-- The difference of the checksums of two lists that differ in one place. -/
theorem run_single (c : Nat) (a b : List Nat) (x y : Nat) : run c (a ++ x :: b) ^^^ run c (a ++ y :: b) = iter b.length (x ^^^ y) := by
  rw [run_append, run_append, run_cons, run_cons, run_split _ b, run_split (_ ^^^ y) b]
  generalize step (run c a) = s
  have h : ∀ p q r : Nat, (p ^^^ r) ^^^ (q ^^^ r) = p ^^^ q := by
    intro p q r
    rw [Nat.xor_assoc, Nat.xor_comm q r, ← Nat.xor_assoc r, Nat.xor_self, Nat.zero_xor]
  rw [h]
  have h2 := run_xor (List.replicate b.length 0) (List.replicate b.length 0) (s ^^^ x) (s ^^^ y) rfl
  rw [← h2]
  unfold iter
  congr 1
  · rw [Nat.xor_comm s x, Nat.xor_comm s y, h]
  · rw [List.zipWith_replicate]; simp

/-- **C35**: one wrong group, anywhere in the version, program or checksum, is always detected, whatever the length. -/
theorem C35_single_error (p : Bytes) (before after : List Nat) (x y : Nat) (hx : x < 32) (hy : y < 32) (hne : x ≠ y)
    (h : (verifyChecked p (before ++ x :: after)).isSome = true) : verifyChecked p (before ++ y :: after) = none := by
  rw [← Option.not_isSome_iff_eq_none]
  intro h2
  rw [C35_constant] at h h2
  have hd : x ^^^ y ≠ 0 := fun hh => hne (xor_eq_zero hh)
  have hlt : x ^^^ y < 2 ^ 5 := Nat.xor_lt_two_pow hx hy
  have hr := run_single 1 (expandPrefix p ++ before) after x y
  rw [List.append_assoc, List.append_assoc, ← checksum_eq, ← checksum_eq, h.2, h2.2] at hr
  have hz : iter after.length (x ^^^ y) ≠ 0 := run_zeros_ne _ _ (by omega) hd
  have hc := iter_ne_const (d := x ^^^ y) hlt after.length
  generalize iter after.length (x ^^^ y) = t at hr hz hc
  split at hr <;> split at hr
  · exact hz hr.symm
  · exact hc hr.symm
  · exact hc (by rw [← hr]; decide)
  · exact hz hr.symm

/-- The version group decides the constant: with the other constant a list does not verify. -/
theorem C35_wrong_constant (p : Bytes) (checked : List Nat)
    (h : checksum (expandPrefix p ++ checked) = if checked.headD 0 = 0 then 0x2bc830a3 else 1) : verifyChecked p checked = none := by
  rw [← Option.not_isSome_iff_eq_none, C35_constant]
  rintro ⟨-, h2⟩
  rw [h] at h2
  split at h2 <;> revert h2 <;> decide

/-- A BIP173 and a BIP350 address: the hypotheses are met. -/
example : (verifyChecked mainnet (buildChecked 0 (List.replicate 20 7) mainnet)).isSome = true ∧
    (verifyChecked mainnet (buildChecked 1 (List.replicate 32 7) mainnet)).isSome = true := by
  rw [C35_built 0 (by decide) _ _ (by decide), C35_built 1 (by decide) _ _ (by decide)]; exact ⟨rfl, rfl⟩

end Verif.Bech32
