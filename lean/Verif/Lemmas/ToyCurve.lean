import Mathlib.Data.ZMod.Basic
import Mathlib.NumberTheory.LucasPrimality
import Mathlib.Tactic.NormNum.Prime
import Verif.Spec.Secp
import Verif.Props.Der
/-!
# A `Curve`

An instance of the assumed contract of libsecp256k1, to show that it can be met: the additive group of the integers modulo a prime
just below `2 ^ 256`, with generator one.
-/
namespace Verif.Toy
open Verif

/-- Powers modulo `m` by repeated squaring. -/
def powMod (m : Nat) : Nat → Nat → Nat → Nat
  | 0, _, _ => 1
  | f + 1, a, e => if e = 0 then 1 else if e % 2 = 1 then a * powMod m f (a * a % m) (e / 2) % m else powMod m f (a * a % m) (e / 2) % m

theorem powMod_eq (m f a e : Nat) (h : e < 2 ^ f) : powMod m f a e % m = a ^ e % m := by
  induction f generalizing a e with
  | zero =>
    have : e = 0 := by simpa using h
    subst this; rfl
  | succ f ih =>
    unfold powMod
    by_cases h0 : e = 0
    · subst h0; rfl
    · rw [if_neg h0]
      have hi := ih (a * a % m) (e / 2) (by rw [Nat.pow_succ] at h; omega)
      have hs : (a * a % m) ^ (e / 2) % m = a ^ (2 * (e / 2)) % m := by
        rw [← Nat.pow_mod, ← Nat.pow_two, ← Nat.pow_mul]
      by_cases h1 : e % 2 = 1
      · rw [if_pos h1, Nat.mod_mod, Nat.mul_mod, hi, hs, ← Nat.mul_mod]
        have : e = 2 * (e / 2) + 1 := by omega
        conv_rhs => rw [this, Nat.pow_succ, Nat.mul_comm]
      · rw [if_neg h1, Nat.mod_mod, hi, hs]
        have : e = 2 * (e / 2) := by omega
        conv_rhs => rw [this]

/-- `65497 * 2 ^ 240 + 1`. -/
def prime : Nat := 65497 * 2 ^ 240 + 1

theorem pow_eq {e r : Nat} (h : powMod prime 256 3 e = r) (he : e < 2 ^ 256) : ((3 : Nat) : ZMod prime) ^ e = ((r : Nat) : ZMod prime) := by
  rw [← Nat.cast_pow]
  refine (ZMod.natCast_eq_natCast_iff _ _ _).2 ?_
  unfold Nat.ModEq
  rw [← h, ← powMod_eq prime 256 3 e he]

theorem factors {q : Nat} (hq : q.Prime) (h : q ∣ prime - 1) : q = 2 ∨ q = 65497 := by
  have e : prime - 1 = 65497 * 2 ^ 240 := by simp [prime]
  rw [e] at h
  rcases (Nat.Prime.dvd_mul hq).1 h with h | h
  · have : Nat.Prime 65497 := by norm_num
    rcases (Nat.dvd_prime this).1 h with h | h
    · exact absurd h hq.one_lt.ne'
    · exact .inr h
  · exact .inl ((Nat.prime_dvd_prime_iff_eq hq Nat.prime_two).1 (hq.dvd_of_dvd_pow h))

theorem prime_prime : Nat.Prime prime := by
  have hne : ∀ r : Nat, r < prime → r ≠ 1 → ((r : Nat) : ZMod prime) ≠ 1 := fun r hr h1 h => by
    have := (ZMod.natCast_eq_natCast_iff r 1 prime).1 (by simpa using h)
    unfold Nat.ModEq at this
    rw [Nat.mod_eq_of_lt hr, Nat.mod_eq_of_lt (by decide)] at this
    exact h1 this
  refine lucas_primality prime ((3 : Nat) : ZMod prime) ?_ fun q hq h => ?_
  · rw [pow_eq (e := prime - 1) (r := 1) (by decide +kernel) (by decide)]
    exact Nat.cast_one
  · rcases factors hq h with rfl | rfl
    · rw [pow_eq (e := (prime - 1) / 2) rfl (by decide)]
      exact hne _ (by decide +kernel) (by decide +kernel)
    · rw [pow_eq (e := (prime - 1) / 65497) rfl (by decide)]
      exact hne _ (by decide +kernel) (by decide +kernel)

instance : NeZero prime := ⟨prime_prime.ne_zero⟩

/-- The value of an encoding. -/
def decode (b : Bytes) : Option (ZMod prime) :=
  if 0 < beNat b ∧ beNat b < prime then some ((beNat b : Nat) : ZMod prime) else none

def parse (b : Bytes) : Option (ZMod prime) :=
  if b.length = 33 ∧ b.head? = some 2 then decode b.tail
  else if b.length = 65 ∧ b.head? = some 4 then decode b.tail
  else none

theorem val_lt (p : ZMod prime) : p.val < prime := ZMod.val_lt p

theorem decode_beBytes (n : Nat) (hn : prime ≤ 256 ^ n) (p : ZMod prime) (h : p ≠ 0) : decode (beBytes n p.val) = some p := by
  unfold decode
  have hb : beNat (beBytes n p.val) = p.val := Der.beNat_beBytes (lt_of_lt_of_le (val_lt p) hn)
  have h0 : 0 < p.val := Nat.pos_of_ne_zero (fun e => h ((ZMod.val_eq_zero p).1 e))
  rw [hb, if_pos ⟨h0, val_lt p⟩, ZMod.natCast_zmod_val]

theorem decode_some {b : Bytes} {p : ZMod prime} (h : decode b = some p) : p ≠ 0 ∧ p.val = beNat b := by
  unfold decode at h
  split at h
  · rename_i hb
    injection h with h
    subst h
    have e : ((beNat b : Nat) : ZMod prime).val = beNat b := ZMod.val_cast_of_lt hb.2
    refine ⟨fun h0 => ?_, e⟩
    rw [h0, ZMod.val_zero] at e
    omega
  · cases h

theorem beBytes_decode {n : Nat} {b : Bytes} {p : ZMod prime} (h : decode b = some p) (hl : b.length = n) : beBytes n p.val = b := by
  rw [(decode_some h).2]
  refine Der.beNat_inj (by simp [hl]) (Der.beNat_beBytes ?_)
  have := Der.beNat_lt b
  rwa [hl] at this

theorem le32 : prime ≤ 256 ^ 32 := by decide
theorem le64 : prime ≤ 256 ^ 64 := by decide

/-- An instance of `Curve`. -/
def curve : Curve (ZMod prime) where
  order := prime
  generator := 1
  compressed p := 2 :: beBytes 32 p.val
  uncompressed p := 4 :: beBytes 64 p.val
  parse := parse
  prime := prime_prime
  small := by decide
  cyclic k := by
    rw [nsmul_one]
    exact ZMod.natCast_eq_zero_iff k prime
  generated p := ⟨p.val, by rw [nsmul_one]; exact (ZMod.natCast_zmod_val p).symm⟩
  compressed_form p := ⟨2, _, rfl, .inl rfl, by simp⟩
  uncompressed_form p := ⟨_, rfl, by simp⟩
  parse_compressed p h := by
    unfold parse
    rw [if_pos ⟨by simp, rfl⟩]
    exact decode_beBytes 32 le32 p h
  parse_uncompressed p h := by
    unfold parse
    rw [if_neg (by simp), if_pos ⟨by simp, rfl⟩]
    exact decode_beBytes 64 le64 p h
  parse_ne b p h := by
    unfold parse at h
    split at h
    · exact (decode_some h).1
    · split at h
      · exact (decode_some h).1
      · cases h
  parse_size b p h := by
    unfold parse at h
    split at h
    · exact .inl (by rename_i hc; exact hc.1)
    · split at h
      · exact .inr (by rename_i hc; exact hc.1)
      · cases h
  parse_33 b p h hl := by
    unfold parse at h
    split at h
    · rename_i hc
      cases b with
      | nil => cases hl
      | cons x r =>
        have hx : x = 2 := by simpa using hc.2
        rw [hx]
        exact congrArg (2 :: ·) (beBytes_decode h (by simpa using hl)).symm
    · rw [if_neg (by omega)] at h
      cases h
  parse_65 b p h hl := by
    unfold parse at h
    rw [if_neg (by rw [hl]; simp)] at h
    split at h
    · rename_i hc
      cases b with
      | nil => cases hl
      | cons x r =>
        have hx : x = 4 := by simpa using hc.2
        rw [hx]
        exact congrArg (4 :: ·) (beBytes_decode h (by simpa using hc.1)).symm
    · cases h

end Verif.Toy
