import Verif.Model.Aead
import Verif.Lemmas.Chacha
import Verif.Lemmas.PolyState
import Verif.Props.Arith
/-!
# Authenticated encryption against the standard
-/
namespace Verif.Aead
open Verif.Chacha (Cipher keyWords At outAt streamW)
open Verif.Spec.Chacha (keystream keystreamBytes poly1305 macKey pad16 tag aeadEncrypt aeadDecrypt packetKey packetNonce packetSeal packetUnseal)

/-- The standard's nonce for the two numbers. -/
def nonceOf (nonce32 : BitVec 32) (nonce64 : BitVec 64) : Bytes := leBytes 4 nonce32.toNat ++ leBytes 8 nonce64.toNat

/-- The cipher is at byte `p` of the keystream. -/
def Pos (key nonce : Bytes) (counter p : Nat) (c : Cipher) : Prop :=
  ∃ nw, (∀ i < 3, nw i = keyWords nonce i) ∧ At (keyWords key) nw (BitVec.ofNat 32 counter) p c

/-- Bytes of the keystream from `p`. -/
def ks (key nonce : Bytes) (counter p n : Nat) : Bytes := (List.range n).map fun i => keystream key nonce counter (p + i)

theorem ks_length (key nonce : Bytes) (counter p n : Nat) : (ks key nonce counter p n).length = n := by simp [ks]

theorem ks_zero (key nonce : Bytes) (counter n : Nat) : ks key nonce counter 0 n = keystreamBytes key nonce counter n := by
  simp [ks, keystreamBytes]

theorem ks_add (key nonce : Bytes) (counter p n m : Nat) : ks key nonce counter p (n + m) = ks key nonce counter p n ++ ks key nonce counter (p + n) m := by
  unfold ks
  rw [List.range_add, List.map_append, List.map_map]
  refine congrArg (List.map _ _ ++ ·) ?_
  refine List.map_congr_left fun i _ => ?_
  simp only [Function.comp, Nat.add_assoc]

theorem xor_append (a b c d : Bytes) (h : a.length = c.length) : Spec.Chacha.xor (a ++ b) (c ++ d) = Spec.Chacha.xor a c ++ Spec.Chacha.xor b d := by
  unfold Spec.Chacha.xor
  exact List.zipWith_append h

theorem xor_length (a b : Bytes) (h : a.length = b.length) : (Spec.Chacha.xor a b).length = a.length := by
  unfold Spec.Chacha.xor
  rw [List.length_zipWith]; omega

theorem xor_zeros (n : Nat) (b : Bytes) (h : b.length = n) : Spec.Chacha.xor (List.replicate n 0) b = b := by
  induction b generalizing n with
  | nil => simp [Spec.Chacha.xor]
  | cons x b ih =>
    subst h
    have := ih b.length rfl
    unfold Spec.Chacha.xor at this ⊢
    simp only [List.length_cons, List.replicate_succ, List.zipWith_cons_cons, this]
    simp

theorem xor_xor (a b : Bytes) (h : a.length = b.length) : Spec.Chacha.xor (Spec.Chacha.xor a b) b = a := by
  induction a generalizing b with
  | nil => simp [Spec.Chacha.xor]
  | cons x a ih =>
    cases b with
    | nil => simp at h
    | cons y b =>
      have := ih b (by simpa using h)
      unfold Spec.Chacha.xor at this ⊢
      simp only [List.zipWith_cons_cons, this]
      rw [UInt8.xor_assoc, UInt8.xor_self, UInt8.xor_zero]

/-! ### Positions -/

theorem Pos.key {key nonce : Bytes} {counter p : Nat} {c : Cipher} (h : Pos key nonce counter p c) : c.key = keyWords key := by
  obtain ⟨nw, _, ha⟩ := h
  exact ha.1

theorem nonce_words (n32 : BitVec 32) (n64 : BitVec 64) : ∀ i < 3,
    (match i with | 0 => n32 | 1 => n64.truncate 32 | 2 => (n64 >>> 32).truncate 32 | _ => 0 : BitVec 32) = keyWords (nonceOf n32 n64) i := by
  intro i hi
  have h1 := n32.isLt
  have h2 := n64.isLt
  have hv : leNat (nonceOf n32 n64) = n32.toNat + 2 ^ 32 * n64.toNat := by
    unfold nonceOf
    rw [leNat_append, leNat_leBytes_of_lt h1, leNat_leBytes_of_lt h2, leBytes_length]
    rfl
  unfold keyWords
  rw [Poly.leNat_take, Poly.leNat_drop, hv]
  apply BitVec.eq_of_toNat_eq
  rw [BitVec.toNat_ofNat]
  match i, hi with
  | 0, _ => simp only [Nat.mul_zero, Nat.reducePow, Nat.reduceMul]; omega
  | 1, _ => simp only [Nat.mul_one, Nat.reducePow, Nat.reduceMul, BitVec.truncate_eq_setWidth, BitVec.toNat_setWidth]; omega
  | 2, _ =>
    simp only [Nat.reducePow, Nat.reduceMul, BitVec.truncate_eq_setWidth, BitVec.toNat_setWidth, BitVec.toNat_ushiftRight, Nat.shiftRight_eq_div_pow]
    omega

theorem seek_pos {key : Bytes} {c : Cipher} (h : c.key = keyWords key) (n32 : BitVec 32) (n64 : BitVec 64) (counter : Chacha.W) :
    Pos key (nonceOf n32 n64) counter.toNat 0 (Chacha.seek c n32 n64 counter) := by
  refine ⟨_, nonce_words n32 n64, h, rfl, Or.inl ⟨rfl, rfl, ?_⟩⟩
  simp [Chacha.seek]

theorem setKey_pos (c : Cipher) (key : Bytes) : Pos key (nonceOf 0 0) 0 0 (Chacha.setKey c key) := by
  refine ⟨fun _ => 0, fun i hi => ?_, rfl, rfl, Or.inl ⟨rfl, rfl, by simp [Chacha.setKey]⟩⟩
  rw [← nonce_words 0 0 i hi]
  match i, hi with
  | 0, _ => rfl
  | 1, _ => rfl
  | 2, _ => rfl

theorem construct_pos (key : Bytes) : Pos key (nonceOf 0 0) 0 0 (Chacha.construct key) := setKey_pos _ key

theorem crypt_pos (b : Chacha.Build) {key nonce : Bytes} {counter p : Nat} {c : Cipher} (h : Pos key nonce counter p c) (text : Bytes) :
    (Chacha.crypt b c text text.length).2 = Spec.Chacha.xor text (ks key nonce counter p text.length) ∧
      Pos key nonce counter (p + text.length) (Chacha.crypt b c text text.length).1 := by
  obtain ⟨nw, hn, ha⟩ := h
  obtain ⟨e1, e2⟩ := Chacha.crypt_spec (inp := text) (size := text.length) b c ha
  refine ⟨?_, nw, hn, e2⟩
  rw [e1]
  unfold outAt ks Spec.Chacha.xor
  apply List.ext_getElem
  · simp
  · intro i h1 h2
    have hi : i < text.length := by simpa using h1
    simp only [List.getElem_map, List.getElem_range, List.getElem_zipWith]
    rw [Chacha.streamW_spec key nonce counter nw hn]
    unfold Chacha.mix
    rw [if_neg (by cases text <;> simp_all), List.getD_eq_getElem?_getD, List.getElem?_eq_getElem hi]
    rfl

theorem stream_pos (b : Chacha.Build) {key nonce : Bytes} {counter p : Nat} {c : Cipher} (h : Pos key nonce counter p c) (n : Nat) :
    (Chacha.stream b c n).2 = ks key nonce counter p n ∧ Pos key nonce counter (p + n) (Chacha.stream b c n).1 := by
  obtain ⟨nw, hn, ha⟩ := h
  obtain ⟨e1, e2⟩ := Chacha.crypt_spec (inp := []) (size := n) b c ha
  unfold Chacha.stream
  refine ⟨?_, nw, hn, e2⟩
  rw [e1]
  unfold outAt ks
  refine List.map_congr_left fun i _ => ?_
  rw [Chacha.streamW_spec key nonce counter nw hn]
  rfl

theorem block_length (key : Bytes) (counter : Nat) (nonce : Bytes) : (Verif.Spec.Chacha.block key counter nonce).length = 64 := by
  rw [← Chacha.blockW_spec key nonce counter (keyWords nonce) (fun _ _ => rfl)]
  exact Chacha.blockW_length _ _ _

theorem ks_block (key nonce : Bytes) (counter n : Nat) (h : n ≤ 64) : ks key nonce counter 0 n = (Verif.Spec.Chacha.block key counter nonce).take n := by
  have hl := block_length key counter nonce
  apply List.ext_getElem
  · rw [ks_length, List.length_take]; omega
  · intro i h1 h2
    have hi : i < n := by simpa [ks] using h1
    have e : (ks key nonce counter 0 n)[i] = keystream key nonce counter (0 + i) :=
      (List.getElem_map _).trans (by rw [List.getElem_range])
    rw [e, List.getElem_take, Nat.zero_add]
    unfold keystream
    rw [show i / 64 = 0 by omega, show i % 64 = i by omega, Nat.add_zero, List.getD_eq_getElem?_getD, List.getElem?_eq_getElem (by omega)]
    rfl

/-! ### The tag -/

theorem padding_eq (n : Nat) (h : n < 2 ^ 64) : padding n = (16 - n % 16) % 16 := by
  unfold padding
  dsimp only
  obtain ⟨-, e2, e3, -⟩ := Arith.C40_ceilinged_partial ⟨false, 64, by decide⟩ (n : Int) 16
    ⟨by simp [Arith.Ty.min], by simp [Arith.Ty.max]; omega⟩ (by unfold Arith.Ty.Has; decide) (by decide) (by simp) (by unfold Arith.Ty.Has; decide)
  obtain ⟨e3, e4⟩ := e3 (by decide)
  generalize Arith.ceilingedDivide ⟨false, 64, by decide⟩ (n : Int) 16 = q at e2
  generalize Arith.ceilingedModulo ⟨false, 64, by decide⟩ (n : Int) 16 = m at e2 e3 e4 ⊢
  have : ∀ k : Int, -16 < k → k ≤ 0 → (Arith.absolute (Arith.Ty.toSigned ⟨false, 64, by decide⟩) k).toNat = (-k).toNat := by
    intro k h1 h2
    obtain ⟨j, rfl⟩ : ∃ j : Nat, k = -(j : Int) := ⟨(-k).toNat, by omega⟩
    have : j < 16 := by omega
    clear h1 h2
    interval_cases j <;> decide
  rw [this m e3 e4]
  omega

theorem authenticate_spec (b : Build) {key nonce : Bytes} {c : Cipher} (h : Pos key nonce 0 0 c) (aad text : Bytes)
    (ha : aad.length < 2 ^ 64) (ht : text.length < 2 ^ 64) :
    (authenticate b c aad text).2 = tag key nonce aad text ∧ (authenticate b c aad text).1.key = keyWords key := by
  obtain ⟨e1, e2⟩ := stream_pos b.cipher h 32
  unfold authenticate
  generalize Chacha.stream b.cipher c 32 = r at e1 e2 ⊢
  obtain ⟨c', k⟩ := r
  dsimp only at e1 e2 ⊢
  refine ⟨?_, e2.key⟩
  rw [ks_block key nonce 0 32 (by decide)] at e1
  have h0 := Poly.absorbed_nil k
  have h1 := Poly.write_absorbed h0 b.mac aad
  have h2 := Poly.write_absorbed h1 b.mac (List.replicate (padding aad.length) 0)
  have h3 := Poly.write_absorbed h2 b.mac text
  have h4 := Poly.write_absorbed h3 b.mac (List.replicate (padding text.length) 0)
  have h5 := Poly.write_absorbed h4 b.mac (leBytes 8 aad.length)
  have h6 := Poly.write_absorbed h5 b.mac (leBytes 8 text.length)
  rw [Poly.flush_spec h6]
  unfold tag macKey pad16
  rw [e1, padding_eq _ ha, padding_eq _ ht, List.nil_append]

theorem encrypt_spec (b : Build) {key : Bytes} {c : Cipher} (h : c.key = keyWords key) (plain1 plain2 aad : Bytes) (n32 : BitVec 32) (n64 : BitVec 64)
    (ha : aad.length < 2 ^ 64) (ht : plain1.length + plain2.length < 2 ^ 64) :
    (encrypt b c plain1 plain2 aad n32 n64).2 = aeadEncrypt key (nonceOf n32 n64) aad (plain1 ++ plain2) ∧
      (encrypt b c plain1 plain2 aad n32 n64).1.key = keyWords key := by
  have h0 := seek_pos h n32 n64 1
  obtain ⟨e1, p1⟩ := crypt_pos b.cipher h0 plain1
  unfold encrypt
  dsimp only
  generalize Chacha.crypt b.cipher (Chacha.seek c n32 n64 1) plain1 plain1.length = r at e1 p1 ⊢
  obtain ⟨c1, t1⟩ := r
  dsimp only at e1 p1 ⊢
  obtain ⟨e2, p2⟩ := crypt_pos b.cipher p1 plain2
  generalize Chacha.crypt b.cipher c1 plain2 plain2.length = r at e2 p2 ⊢
  obtain ⟨c2, t2⟩ := r
  dsimp only at e2 p2 ⊢
  have hcat : t1 ++ t2 = Verif.Spec.Chacha.encrypt key (nonceOf n32 n64) 1 (plain1 ++ plain2) := by
    unfold Verif.Spec.Chacha.encrypt
    rw [← ks_zero, List.length_append, ks_add, xor_append _ _ _ _ (by rw [ks_length]), e1, e2]
    rfl
  have hl : (t1 ++ t2).length < 2 ^ 64 := by
    rw [hcat]; unfold Verif.Spec.Chacha.encrypt
    rw [xor_length _ _ (by simp [keystreamBytes]), List.length_append]; exact ht
  obtain ⟨e3, k3⟩ := authenticate_spec b (seek_pos p2.key n32 n64 0) aad (t1 ++ t2) ha hl
  generalize authenticate b (Chacha.seek c2 n32 n64 0) aad (t1 ++ t2) = r at e3 k3 ⊢
  obtain ⟨c3, t3⟩ := r
  dsimp only at e3 k3 ⊢
  refine ⟨?_, k3⟩
  unfold aeadEncrypt
  dsimp only
  rw [e3, hcat]

theorem or_eq_zero (a b : UInt8) : a ||| b = 0 ↔ a = 0 ∧ b = 0 := by
  constructor
  · intro h
    have h' : a.toNat ||| b.toNat = 0 := by rw [← UInt8.toNat_or, h]; rfl
    rw [Nat.or_eq_zero_iff] at h'
    exact ⟨UInt8.toNat_inj.1 h'.1, UInt8.toNat_inj.1 h'.2⟩
  · rintro ⟨rfl, rfl⟩; rfl

theorem difference_iff (a b : Bytes) (ha : a.length = 16) (hb : b.length = 16) : difference a b = 0 ↔ a = b := by
  have gen : ∀ (l : List Nat) (d : UInt8), l.foldl (fun d i => d ||| (a.getD i 0 ^^^ b.getD i 0)) d = 0 ↔ d = 0 ∧ ∀ i ∈ l, a.getD i 0 = b.getD i 0 := by
    intro l
    induction l with
    | nil => simp
    | cons x l ih =>
      intro d
      rw [List.foldl_cons, ih, or_eq_zero, UInt8.xor_eq_zero_iff]
      simp only [List.mem_cons, forall_eq_or_imp, and_assoc]
  unfold difference
  rw [gen]
  constructor
  · rintro ⟨-, h⟩
    apply List.ext_getElem (by omega)
    intro i h1 h2
    have := h i (List.mem_range.2 (by omega))
    rw [List.getD_eq_getElem?_getD, List.getD_eq_getElem?_getD, List.getElem?_eq_getElem h1, List.getElem?_eq_getElem h2] at this
    exact this
  · rintro rfl
    exact ⟨rfl, fun _ _ => rfl⟩

theorem tag_length (key nonce aad text : Bytes) : (tag key nonce aad text).length = 16 := by simp [tag, poly1305]

theorem decrypt_spec (b : Build) {key : Bytes} {c : Cipher} (h : c.key = keyWords key) (aad : Bytes) (n32 : BitVec 32) (n64 : BitVec 64) (cipher : Bytes)
    (ha : aad.length < 2 ^ 64) (hc : cipher.length < 2 ^ 64) (h16 : 16 ≤ cipher.length) :
    (decrypt b c aad n32 n64 cipher).2 = (match aeadDecrypt key (nonceOf n32 n64) aad cipher with
      | some plain => (true, plain)
      | none => (false, List.replicate (cipher.length - 16) 0)) ∧
      (decrypt b c aad n32 n64 cipher).1.key = keyWords key := by
  unfold decrypt
  dsimp only
  have hl : (cipher.take (cipher.length - 16)).length = cipher.length - 16 := by rw [List.length_take]; omega
  obtain ⟨e3, k3⟩ := authenticate_spec b (seek_pos h n32 n64 0) aad (cipher.take (cipher.length - 16)) ha (by omega)
  generalize authenticate b (Chacha.seek c n32 n64 0) aad (cipher.take (cipher.length - 16)) = r at e3 k3 ⊢
  obtain ⟨c3, t3⟩ := r
  dsimp only at e3 k3 ⊢
  unfold aeadDecrypt
  dsimp only
  have hd := difference_iff t3 (cipher.drop (cipher.length - 16)) (by rw [e3, tag_length]) (by rw [List.length_drop]; omega)
  by_cases ht : t3 = cipher.drop (cipher.length - 16)
  · have hd0 := hd.2 ht
    rw [hd0, if_pos (ht.symm.trans e3)]
    simp only [beq_self_eq_true, if_true]
    have h0 := seek_pos k3 n32 n64 1
    obtain ⟨e1, p1⟩ := crypt_pos b.cipher h0 (cipher.take (cipher.length - 16))
    rw [hl] at e1 p1
    refine ⟨?_, p1.key⟩
    rw [e1, ks_zero]
    unfold Verif.Spec.Chacha.encrypt
    rw [hl]
    rfl
  · have hd0 : difference t3 (cipher.drop (cipher.length - 16)) ≠ 0 := fun e => ht (hd.1 e)
    have hd1 : (difference t3 (cipher.drop (cipher.length - 16)) == 0) = false := by simpa using hd0
    have hs : ¬ cipher.drop (cipher.length - 16) = tag key (nonceOf n32 n64) aad (cipher.take (cipher.length - 16)) := fun e => ht (e3.trans e.symm)
    simp only [hd1, if_neg hs, Bool.false_eq_true, if_false]
    exact ⟨trivial, k3⟩

/-! ### Rekeying -/

/-- The interval of a counter of 32 bits: zero is never reached before the counter wraps. -/
def effective (interval : BitVec 32) : Nat := if interval = 0 then 2 ^ 32 else interval.toNat

theorem effective_pos (i : BitVec 32) : 0 < effective i := by
  unfold effective
  split
  · decide
  · rename_i h
    exact Nat.pos_of_ne_zero fun e => h (BitVec.eq_of_toNat_eq e)

theorem effective_le (i : BitVec 32) : effective i ≤ 2 ^ 32 := by
  unfold effective
  split
  · decide
  · exact Nat.le_of_lt i.isLt

theorem count_step (i : BitVec 32) (n : Nat) : BitVec.ofNat 32 (n % effective i) + 1 = i ↔ (n + 1) % effective i = 0 := by
  have hp := effective_pos i
  have hle := effective_le i
  have hm := Nat.mod_lt n hp
  have key : (n + 1) % effective i = 0 ↔ n % effective i + 1 = effective i := by
    rw [Nat.add_mod]
    by_cases h1 : effective i = 1
    · rw [h1]; omega
    · rw [Nat.mod_eq_of_lt (a := 1) (by omega)]
      generalize n % effective i = k at *
      constructor
      · intro h
        by_contra hne
        rw [Nat.mod_eq_of_lt (by omega)] at h
        omega
      · intro h; rw [h, Nat.mod_self]
  rw [key]
  generalize n % effective i = k at *
  have : (BitVec.ofNat 32 k + 1 = i) ↔ (k + 1) % 2 ^ 32 = i.toNat := by
    rw [← BitVec.toNat_inj, show (1 : BitVec 32) = BitVec.ofNat 32 1 from rfl, ← BitVec.ofNat_add, BitVec.toNat_ofNat]
  rw [this]
  have hi := i.isLt
  unfold effective at *
  split at hp <;> rename_i h
  · subst h
    simp only [if_true] at *
    rw [show (0 : BitVec 32).toNat = 0 from rfl]
    omega
  · simp only [if_neg h] at *
    omega

theorem div_step {I n : Nat} (hI : 0 < I) : ((n + 1) % I = 0 → (n + 1) / I = n / I + 1) ∧ ((n + 1) % I ≠ 0 → (n + 1) / I = n / I ∧ (n + 1) % I = n % I + 1) := by
  constructor
  · intro h
    rw [Nat.succ_div, if_pos (Nat.dvd_of_mod_eq_zero h)]
  · intro h
    have : (n + 1) / I = n / I := by rw [Nat.succ_div, if_neg (fun d => h (Nat.mod_eq_zero_of_dvd d))]; rfl
    refine ⟨this, ?_⟩
    have a := Nat.div_add_mod (n + 1) I
    have b := Nat.div_add_mod n I
    rw [this] at a
    omega

/-- The state before packet `n`. -/
def Packets.Before (key : Bytes) (interval : BitVec 32) (n : Nat) (s : Packets) : Prop :=
  s.interval = interval ∧ s.aead.key = keyWords (packetKey key (n / effective interval)) ∧
    s.packets = BitVec.ofNat 32 (n % effective interval) ∧ s.rekeys = BitVec.ofNat 64 (n / effective interval)

theorem leBytes_trunc (n v : Nat) : leBytes n (v % 256 ^ n) = leBytes n v := by
  apply leNat_inj
  · simp
  · rw [leNat_leBytes, leNat_leBytes, Nat.mod_mod]

theorem nonceOf_ofNat (a b : Nat) : nonceOf (BitVec.ofNat 32 a) (BitVec.ofNat 64 b) = leBytes 4 a ++ leBytes 8 b := by
  unfold nonceOf
  rw [BitVec.toNat_ofNat, BitVec.toNat_ofNat]
  congr 1
  · exact leBytes_trunc 4 a
  · exact leBytes_trunc 8 b

theorem next_before (b : Build) {key : Bytes} {interval : BitVec 32} {n : Nat} {s : Packets} (h : Packets.Before key interval n s) :
    Packets.Before key interval (n + 1) (Packets.next b s) := by
  obtain ⟨h1, h2, h3, h4⟩ := h
  have hp := effective_pos interval
  unfold Packets.next
  dsimp only
  rw [h3, h1]
  by_cases hc : (n + 1) % effective interval = 0
  · rw [if_pos ((count_step interval n).2 hc)]
    obtain ⟨d1, -⟩ := div_step (n := n) hp
    have d1 := d1 hc
    refine ⟨rfl, ?_, ?_, ?_⟩
    · dsimp only
      rw [d1]
      show keyWords _ = _
      congr 1
      unfold stream
      obtain ⟨e1, -⟩ := stream_pos b.cipher (seek_pos h2 0xffffffff s.rekeys 1) 32
      rw [e1, h4, show (0xffffffff : BitVec 32) = BitVec.ofNat 32 0xffffffff from rfl, nonceOf_ofNat, packetKey]
      unfold aeadEncrypt Verif.Spec.Chacha.encrypt
      dsimp only
      rw [List.length_replicate, xor_zeros 32 _ (by simp [keystreamBytes]), List.take_append_of_le_length (by simp [keystreamBytes]), List.take_of_length_le (by simp [keystreamBytes]), ks_zero]
      rfl
    · dsimp only; rw [hc]; rfl
    · dsimp only; rw [d1, h4, BitVec.ofNat_add]; rfl
  · rw [if_neg (fun e => hc ((count_step interval n).1 e))]
    obtain ⟨-, d2⟩ := div_step (n := n) hp
    obtain ⟨d2, d3⟩ := d2 hc
    refine ⟨rfl, ?_, ?_, ?_⟩
    · dsimp only; rw [d2]; exact h2
    · dsimp only; rw [d3, BitVec.ofNat_add]; rfl
    · dsimp only; rw [d2]; exact h4

theorem packet_nonce (interval : BitVec 32) (n : Nat) : nonceOf (BitVec.ofNat 32 (n % effective interval)) (BitVec.ofNat 64 (n / effective interval)) = packetNonce (effective interval) n :=
  nonceOf_ofNat _ _

theorem packets_encrypt (b : Build) {key : Bytes} {interval : BitVec 32} {n : Nat} {s : Packets} (h : Packets.Before key interval n s) (plain1 plain2 aad : Bytes)
    (ha : aad.length < 2 ^ 64) (ht : plain1.length + plain2.length < 2 ^ 64) :
    (Packets.encrypt b s plain1 plain2 aad).2 = packetSeal key (effective interval) n aad (plain1 ++ plain2) ∧
      Packets.Before key interval (n + 1) (Packets.encrypt b s plain1 plain2 aad).1 := by
  obtain ⟨h1, h2, h3, h4⟩ := h
  unfold Packets.encrypt
  obtain ⟨e1, e2⟩ := encrypt_spec b h2 plain1 plain2 aad s.packets s.rekeys ha ht
  refine ⟨?_, next_before b ⟨h1, e2, h3, h4⟩⟩
  dsimp only
  rw [e1, h3, h4, packet_nonce]
  rfl

theorem packets_decrypt (b : Build) {key : Bytes} {interval : BitVec 32} {n : Nat} {s : Packets} (h : Packets.Before key interval n s) (aad cipher : Bytes)
    (ha : aad.length < 2 ^ 64) (hc : cipher.length < 2 ^ 64) (h16 : 16 ≤ cipher.length) :
    (Packets.decrypt b s aad cipher).2 = (match packetUnseal key (effective interval) n aad cipher with
      | some plain => (true, plain)
      | none => (false, List.replicate (cipher.length - 16) 0)) ∧
      Packets.Before key interval (n + 1) (Packets.decrypt b s aad cipher).1 := by
  obtain ⟨h1, h2, h3, h4⟩ := h
  unfold Packets.decrypt
  obtain ⟨e1, e2⟩ := decrypt_spec b h2 aad s.packets s.rekeys cipher ha hc h16
  refine ⟨?_, next_before b ⟨h1, e2, h3, h4⟩⟩
  dsimp only
  refine e1.trans ?_
  rw [h3, h4, packet_nonce]
  rfl

/-- The state before a chunk. -/
def Chunks.Before (interval : BitVec 32) (f : Verif.Spec.Chacha.Fs) (s : Chunks) : Prop :=
  s.interval = interval ∧ Pos f.key (leBytes 4 0 ++ leBytes 8 (f.chunk / effective interval)) 0 f.position s.cipher ∧
    s.chunks = BitVec.ofNat 32 (f.chunk % effective interval) ∧ s.rekeys = BitVec.ofNat 64 (f.chunk / effective interval)

theorem chunks_crypt (b : Build) {interval : BitVec 32} {f : Verif.Spec.Chacha.Fs} {s : Chunks} (h : Chunks.Before interval f s) (inp : Bytes) :
    (Chunks.crypt b s inp).2 = (f.crypt (effective interval) inp).2 ∧ Chunks.Before interval (f.crypt (effective interval) inp).1 (Chunks.crypt b s inp).1 := by
  obtain ⟨h1, h2, h3, h4⟩ := h
  have hp := effective_pos interval
  obtain ⟨e1, e2⟩ := crypt_pos b.cipher h2 inp
  unfold Chunks.crypt Verif.Spec.Chacha.Fs.crypt
  generalize Chacha.crypt b.cipher s.cipher inp inp.length = r at e1 e2 ⊢
  obtain ⟨c, out⟩ := r
  dsimp only at e1 e2 ⊢
  rw [h3, h1]
  by_cases hc : (f.chunk + 1) % effective interval = 0
  · rw [if_pos ((count_step interval f.chunk).2 hc), if_pos hc]
    obtain ⟨d1, -⟩ := div_step (n := f.chunk) hp
    have d1 := d1 hc
    refine ⟨e1, rfl, ?_, ?_, ?_⟩
    · dsimp only
      obtain ⟨e3, e4⟩ := stream_pos b.cipher e2 32
      have := seek_pos (setKey_pos (Chacha.stream b.cipher c 32).1 (Chacha.stream b.cipher c 32).2).key 0 (s.rekeys + 1) 0
      rw [d1, show leBytes 4 0 ++ leBytes 8 (f.chunk / effective interval + 1) = nonceOf 0 (s.rekeys + 1) by
        rw [h4, show (0 : BitVec 32) = BitVec.ofNat 32 0 from rfl, show (1 : BitVec 64) = BitVec.ofNat 64 1 from rfl, ← BitVec.ofNat_add, nonceOf_ofNat]]
      unfold Verif.Spec.Chacha.Fs.keystream
      unfold ks at e3
      rw [← e3]
      exact this
    · dsimp only; rw [hc]; rfl
    · dsimp only; rw [d1, h4, BitVec.ofNat_add]; rfl
  · rw [if_neg (fun e => hc ((count_step interval f.chunk).1 e)), if_neg hc]
    obtain ⟨-, d2⟩ := div_step (n := f.chunk) hp
    obtain ⟨d2, d3⟩ := d2 hc
    refine ⟨e1, rfl, ?_, ?_, ?_⟩
    · dsimp only; rw [d2]; exact e2
    · dsimp only; rw [d3, BitVec.ofNat_add]; rfl
    · dsimp only; rw [d2]; exact h4

end Verif.Aead
