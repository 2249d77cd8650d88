import Verif.Model.EndianWide
import Verif.Props.Endian
/-!
# C88 for integers wider than 64 bits
-/
namespace Verif.Endian
open Verif

/-- **C88** A hash as an integer is its little endian value and the reverse gives its bytes; the order of hashes as integers is that of these values. -/
theorem C88_uintx (bytes : Nat) (hb : 1 < bytes) (d d' : Bytes) (hd : d.length = bytes) (hd' : d'.length = bytes) (v : BitVec (8 * bytes)) :
    (toUintx bytes d).toNat = leNat d ∧ (toUintxBig bytes d).toNat = beNat d ∧ (toUintx bytes d < toUintx bytes d' ↔ leNat d < leNat d') ∧
    fromUintx bytes v = leBytes bytes v.toNat ∧ fromUintx bytes (toUintx bytes d) = d ∧ toUintx bytes (fromUintx bytes v) = v := by
  have hp : (2 : Nat) ^ (8 * bytes) = 256 ^ bytes := by rw [Nat.pow_mul]
  have R := C88_read (w := 8 * bytes) (by omega) bytes
  have F : ∀ v : BitVec (8 * bytes), fromUintx bytes v = leBytes bytes v.toNat := by
    intro v
    have := (C88_fill (w := 8 * bytes) (by omega) false (List.replicate bytes 0) v).1
    rw [List.length_replicate] at this
    obtain ⟨h1, h2⟩ := this
    change (fromUintx bytes v).length = bytes at h1
    change ((leNat (fromUintx bytes v) : Nat) : Int) = (v.toNat : Int) % 256 ^ bytes at h2
    have h3 : leNat (fromUintx bytes v) = v.toNat := by
      have hv := v.isLt
      rw [hp] at hv
      rw [show ((256 : Int) ^ bytes) = ((256 ^ bytes : Nat) : Int) from (Int.natCast_pow 256 bytes).symm, ← Int.natCast_emod, Nat.mod_eq_of_lt hv] at h2
      exact Int.ofNat_inj.1 h2
    rw [← h3, leBytes_leNat' h1]
  have T : ∀ d : Bytes, d.length = bytes → (toUintx bytes d).toNat = leNat d := by
    intro d hd
    unfold toUintx
    rw [(R d).2, List.take_of_length_le (by omega), BitVec.toNat_ofNat, hp, Nat.mod_eq_of_lt]
    have := leNat_lt d
    rwa [hd] at this
  refine ⟨T d hd, ?_, ?_, F v, ?_, ?_⟩
  · unfold toUintxBig
    rw [(R d).1, List.take_of_length_le (by omega), BitVec.toNat_ofNat, hp, Nat.mod_eq_of_lt]
    have := Der.beNat_lt d
    rwa [hd] at this
  · rw [BitVec.lt_def, T d hd, T d' hd']
  · rw [F, T d hd, leBytes_leNat' hd]
  · apply BitVec.eq_of_toNat_eq
    rw [T _ (by rw [F]; simp), F]
    have hv := v.isLt
    rw [hp] at hv
    exact leNat_leBytes_of_lt hv

theorem push_nat (value : Nat) (b : UInt8) : (value <<< 8) ||| b.toNat = 256 * value + b.toNat := by
  rw [← Nat.shiftLeft_add_eq_or_of_lt (show b.toNat < 2 ^ 8 from b.toNat_lt), Nat.shiftLeft_eq]
  omega

/-- **C88** Data of any size as an unbounded integer. -/
theorem C88_unbounded (d : Bytes) : fromBigUnbounded d = beNat d ∧ fromLittleUnbounded d = leNat d := by
  have L : ∀ d : Bytes, fromLittleUnbounded d = leNat d := by
    intro d
    induction d with
    | nil => rfl
    | cons b d ih =>
      show (fromLittleUnbounded d <<< 8) ||| b.toNat = _
      rw [push_nat, ih, leNat]
      omega
  refine ⟨?_, L d⟩
  unfold beNat
  rw [← L d.reverse]
  unfold fromBigUnbounded fromLittleUnbounded
  rw [List.foldr_reverse]

-- A hash of two bytes.
example : (toUintx 2 [0x34, 0x12]).toNat = 0x1234 ∧ fromUintx 2 0x1234#16 = [0x34, 0x12] ∧ (toUintxBig 2 [0x12, 0x34]).toNat = 0x1234 := by decide
example : fromBigUnbounded [1, 2, 3] = 0x010203 ∧ fromLittleUnbounded [1, 2, 3] = 0x030201 := by decide

end Verif.Endian
