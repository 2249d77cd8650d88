import Verif.Model.Stealth
import Verif.Props.Wallet
import Verif.Props.Binary
import Verif.Props.Patterns
import Verif.Props.EcOperators
import Verif.Lemmas.ToyCurve
/-!
# C67: stealth payments reach their receiver, stealth addresses survive their text
-/
namespace Verif.Stealth
open Verif Verif.Ec Verif.Wallet Verif.Binary Verif.Pattern Verif.Spec Verif.Spec.Wallet
open Verif.Sha (Build)
variable {P : Type} [AddCommGroup P] [DecidableEq P] {C : Curve P} {b : Build}

/-! ## Keys -/

theorem secretToPublic_some {s p : Bytes} (h : secretToPublic C s = some p) :
    (0 < beNat s ∧ beNat s < C.order) ∧ p = C.compressed (beNat s • C.generator) := by
  unfold secretToPublic at h
  split at h
  · rename_i hv
    exact ⟨(verify_iff C s).1 hv, (Option.some.inj h).symm⟩
  · cases h

theorem secretToPublic_of {s : Bytes} (h : 0 < beNat s ∧ beNat s < C.order) :
    secretToPublic C s = some (C.compressed (beNat s • C.generator)) := by
  unfold secretToPublic
  rw [if_pos ((verify_iff C s).2 h)]

/-- The shared point is the same from both sides. -/
theorem shared_eq {s t : Bytes} (hs : 0 < beNat s ∧ beNat s < C.order) (ht : 0 < beNat t ∧ beNat t < C.order) :
    sharedSecret C b s (C.compressed (beNat t • C.generator)) =
      some (HashFn.sha256Hash b true (C.compressed ((beNat s * beNat t) • C.generator))) := by
  unfold sharedSecret mulPoint
  rw [C.parse_compressed _ (valid_smul C ht.1 ht.2)]
  dsimp only
  rw [if_pos ((verify_iff C s).2 hs), mul_nsmul']
  rfl

/-- **C67** The key a sender computes from the scan key and the ephemeral secret is the key the receiver computes from the ephemeral
key and the scan secret. -/
theorem C67_shared (e s : Bytes) (E S : Bytes) (he : secretToPublic C e = some E) (hs : secretToPublic C s = some S) (spend : Bytes) :
    uncoverPublic C b S e spend = uncoverPublic C b E s spend ∧ sharedSecret C b e S ≠ none := by
  obtain ⟨h1, rfl⟩ := secretToPublic_some he
  obtain ⟨h2, rfl⟩ := secretToPublic_some hs
  unfold uncoverPublic
  rw [shared_eq h1 h2, shared_eq h2 h1, Nat.mul_comm]
  exact ⟨rfl, by simp⟩

/-- **C67** The secret the receiver derives is the secret of the key that is derived from public data; it exists for the same ephemeral keys. -/
theorem C67_private (scan spend e : Bytes) (Q : Bytes) (hq : secretToPublic C spend = some Q) :
    (uncoverPrivate C b e scan spend).bind (secretToPublic C) = uncoverPublic C b e scan Q ∧
    ((uncoverPrivate C b e scan spend).isSome ↔ (uncoverPublic C b e scan Q).isSome) := by
  obtain ⟨h, rfl⟩ := secretToPublic_some hq
  have key : ∀ t : Bytes, (addSecret C spend t).bind (secretToPublic C) = addPoint C (C.compressed (beNat spend • C.generator)) t := by
    intro t
    unfold addSecret addPoint
    rw [C.parse_compressed _ (valid_smul C h.1 h.2)]
    dsimp only
    rw [(verify_iff C spend).2 h, ← add_nsmul]
    have hz : (beNat spend + beNat t) • C.generator ≠ 0 ↔ (beNat spend + beNat t) % C.order ≠ 0 := not_congr (smul_zero_iff C _)
    by_cases hc : beNat t < C.order ∧ (beNat spend + beNat t) % C.order ≠ 0
    · rw [if_pos ⟨rfl, hc⟩, if_pos ⟨hc.1, hz.2 hc.2⟩, Option.bind_some]
      have hlt : (beNat spend + beNat t) % C.order < C.order := Nat.mod_lt _ C.prime.pos
      have hb : beNat (beBytes 32 ((beNat spend + beNat t) % C.order)) = (beNat spend + beNat t) % C.order := by
        rw [Der.beNat_beBytes]; exact lt_trans hlt (by have := C.small; norm_num at this ⊢; exact this)
      rw [secretToPublic_of (by rw [hb]; omega), hb, mod_smul]
    · rw [if_neg (fun hh => hc hh.2), if_neg (fun hh => hc ⟨hh.1, hz.1 hh.2⟩)]
      rfl
  have e1 : (uncoverPrivate C b e scan spend).bind (secretToPublic C) = uncoverPublic C b e scan (C.compressed (beNat spend • C.generator)) := by
    unfold uncoverPrivate uncoverPublic
    cases sharedSecret C b scan e with
    | none => rfl
    | some t => exact key t
  refine ⟨e1, ?_⟩
  rw [← e1]
  cases hu : uncoverPrivate C b e scan spend with
  | none => rfl
  | some x =>
    have hv : (0 < beNat x ∧ beNat x < C.order) := by
      unfold uncoverPrivate at hu
      cases ht : sharedSecret C b scan e with
      | none => rw [ht] at hu; cases hu
      | some t =>
        rw [ht, Option.bind_some] at hu
        unfold addSecret at hu
        split at hu
        · rename_i hc
          have hx := Option.some.inj hu
          have hlt : (beNat spend + beNat t) % C.order < C.order := Nat.mod_lt _ C.prime.pos
          have hb : beNat (beBytes 32 ((beNat spend + beNat t) % C.order)) = (beNat spend + beNat t) % C.order := by
            rw [Der.beNat_beBytes]; exact lt_trans hlt (by have := C.small; norm_num at this ⊢; exact this)
          rw [← hx, hb]; omega
        · cases hu
    rw [Option.bind_some, secretToPublic_of hv]
    simp

/-! ## Mining -/

theorem mine_some {trial : UInt32 → Option (List Op)} {start : UInt32} {s : List Op} : ∀ (f : Nat) (n : UInt32),
    mineLoop trial start f n = some s → ∃ m, m ≠ start ∧ trial m = some s
  | 0, n, h => by simp [mineLoop] at h
  | f + 1, n, h => by
    unfold mineLoop at h
    split at h
    · cases h
    · rename_i hn
      cases ht : trial n with
      | none => rw [ht] at h; exact mine_some f _ h
      | some x => rw [ht] at h; exact ⟨n, hn, by rw [ht]; exact h⟩

theorem mine_none {trial : UInt32 → Option (List Op)} {start : UInt32} : ∀ (f k : Nat), 2 ^ 32 ≤ f + k → 0 < k →
    mineLoop trial start f (start + UInt32.ofNat k) = none → ∀ j, k ≤ j → j < 2 ^ 32 → trial (start + UInt32.ofNat j) = none
  | 0, k, hf, hk, h => by intro j h1 h2; omega
  | f + 1, k, hf, hk, h => by
    intro j h1 h2
    have hne : start + UInt32.ofNat k ≠ start := by
      intro e
      have e2 : UInt32.ofNat k = 0 := by
        have := congrArg (· - start) e
        simp only [UInt32.sub_self] at this
        rwa [UInt32.add_comm, UInt32.add_sub_cancel] at this
      have := congrArg UInt32.toNat e2
      rw [UInt32.toNat_ofNat'] at this
      simp only [Nat.reducePow, UInt32.toNat_zero] at *
      rw [Nat.mod_eq_of_lt (by omega)] at this
      omega
    unfold mineLoop at h
    rw [if_neg hne] at h
    cases ht : trial (start + UInt32.ofNat k) with
    | some x => rw [ht] at h; cases h
    | none =>
      rw [ht] at h
      dsimp only at h
      rcases Nat.eq_or_lt_of_le h1 with rfl | h1
      · exact ht
      · have e : start + UInt32.ofNat k + 1 = start + UInt32.ofNat (k + 1) := by
          rw [UInt32.add_assoc, UInt32.ofNat_add]; rfl
        rw [e] at h
        exact mine_none f (k + 1) (by omega) (by omega) h j (by omega) h2

theorem mine_iff (trial : UInt32 → Option (List Op)) (start : UInt32) :
    mineLoop trial start (2 ^ 32) (start + 1) = none ↔ ∀ m, m ≠ start → trial m = none := by
  constructor
  · intro h m hm
    have := mine_none (trial := trial) (start := start) (2 ^ 32) 1 (by omega) (by omega) h (m - start).toNat
    rw [UInt32.ofNat_toNat] at this
    have e : start + (m - start) = m := by rw [UInt32.add_comm]; exact UInt32.sub_add_cancel m start
    rw [e] at this
    refine this ?_ (UInt32.toNat_lt _)
    rcases Nat.eq_zero_or_pos (m - start).toNat with h0 | h0
    · exfalso
      have : m - start = 0 := UInt32.toNat_inj.1 h0
      apply hm
      rw [← e, this]; simp
    · exact h0
  · intro h
    cases hm : mineLoop trial start (2 ^ 32) (start + 1) with
    | none => rfl
    | some s =>
      obtain ⟨m, h1, h2⟩ := mine_some _ _ hm
      rw [h m h1] at h2; cases h2

/-! ## Stealth scripts -/

theorem sha512_length (seed : Bytes) (h : seed.length ≤ 100000) : (HashFn.sha512Hash b true seed).length = 64 := by
  rw [(HashFn.C58_functions b true seed (by omega)).2.2.2.2.1]
  exact Hash.standard_length (Hash.Standard.sha512 (b := Build.portable)) _

theorem pad_length (seed : Bytes) : (padOf b seed).length ≤ 43 := by
  unfold padOf
  rw [List.length_take]
  omega

theorem nonceScript_data (head : Bytes) (h1 : 32 ≤ head.length) (h2 : head.length ≤ 76) (n : UInt32) :
    payNullData (nonceScript head n) = true ∧ stealthData (nonceScript head n) = some (head ++ leBytes 4 n.toNat) := by
  have hl : (head ++ leBytes 4 n.toNat).length = head.length + 4 := by simp [leBytes_length]
  unfold nonceScript
  generalize head ++ leBytes 4 n.toNat = d at *
  have hp := C64_builders.2.2.2.1 d (by omega) (by intro v e; rw [e] at hl; simp at hl)
  have hp := (output_iff _).2.2.1.1 hp
  refine ⟨hp, ?_⟩
  unfold stealthData
  rw [hp, if_pos rfl]
  have e : toPayNullData d = [{ code := 106 }, push d] := by unfold toPayNullData; rw [if_neg (by omega)]
  rw [e]
  dsimp only
  unfold push
  dsimp only
  rw [if_pos (by omega)]

/-- The first bits of the double SHA-256 of the script are the filter's. -/
def Matches (filter : List Bool) (script : Bytes) : Prop := filter = firstBits filter.length ((sha256d script).take 4)

theorem opsData_null (d : Bytes) (h : d.length ≤ 80) : (opsData (toPayNullData d)).length ≤ 100000 := by
  unfold toPayNullData
  rw [if_neg (by omega), opsData_two]
  have : ∀ o : Op, (Op.toData o).length ≤ 5 + o.data.length := by
    intro o
    unfold Op.toData
    split
    · omega
    · simp only [List.length_cons, List.length_append]
      split <;> [skip; split <;> [skip; split]] <;> simp [writeLE, leBytes_length] <;> omega
  have h1 := this { code := 106 }
  have h2 := this (push d)
  have h3 : (push d).data = d := rfl
  rw [h3] at h2
  simp only [List.length_append, List.length_nil] at *
  omega

theorem even_form {k : Nat} (h : isEvenKey (C.compressed (k • C.generator)) = true) :
    ∃ x, C.compressed (k • C.generator) = 2 :: x ∧ x.length = 32 := by
  obtain ⟨s, x, e, -, hx⟩ := C.compressed_form (k • C.generator)
  rw [e] at h ⊢
  unfold isEvenKey at h
  simp only [List.head?_cons, beq_iff_eq, Option.some.injEq] at h
  exact ⟨x, by rw [h], hx⟩

theorem trial_iff {filter : Binary} {l : List Bool} (hf : Holds filter l) (hm : filter.bytes.length ≤ maxSize) (head : Bytes)
    (h1 : 32 ≤ head.length) (h2 : head.length ≤ 76) (n : UInt32) (ops : List Op) :
    trial b filter head n = some ops ↔ ops = nonceScript head n ∧ Matches l (opsData (nonceScript head n)) := by
  obtain ⟨-, hd⟩ := nonceScript_data head h1 h2 n
  have hlen : (opsData (nonceScript head n)).length ≤ 100000 := opsData_null _ (by simp [leBytes_length]; omega)
  unfold trial stealthPrefix
  dsimp only
  rw [hd, hash_eq _ hlen]
  dsimp only [Option.map_some]
  have h4 : ((sha256d (opsData (nonceScript head n))).take 4).length = 4 := by simp [sha256d_length]
  have e : leBytes 4 (leNat ((sha256d (opsData (nonceScript head n))).take 4)) = (sha256d (opsData (nonceScript head n))).take 4 :=
    leBytes_leNat' h4
  rw [e]
  have hg := C66_data filter.bits ((sha256d (opsData (nonceScript head n))).take 4)
  have hs : (ofData filter.bits ((sha256d (opsData (nonceScript head n))).take 4)).bytes.length ≤ maxSize := by
    have e1 := holds_size hf
    have e2 := holds_size hg
    have e3 : (ofData filter.bits ((sha256d (opsData (nonceScript head n))).take 4)).bits = filter.bits := rfl
    rw [e3] at e2
    omega
  have hsame := (C66_equal hf hg hm hs).1
  unfold Matches
  rw [← hf.1]
  by_cases hc : same filter (ofData filter.bits ((sha256d (opsData (nonceScript head n))).take 4)) = true
  · rw [if_pos hc]
    exact ⟨fun h => ⟨(Option.some.inj h).symm, hsame.1 hc⟩, fun h => by rw [h.1]⟩
  · rw [if_neg hc]
    exact ⟨fun h => (by cases h), fun h => absurd (hsame.2 h.2) hc⟩

/-- **C67** A stealth script is null data of the ephemeral key, a pad and a nonce such that the filter is a prefix of the hash of the script;
the key is extracted from it. If there is none then the secret is not valid, its key is odd, or no nonce but the first gives such a script. -/
theorem C67_script (secret seed : Bytes) (filter : Binary) (l : List Bool) (hf : Holds filter l) (hm : filter.bytes.length ≤ maxSize) :
    (∀ ops, createScript C b secret filter seed = some ops → ∃ (x : Bytes) (nonce : UInt32), secretToPublic C secret = some (2 :: x) ∧ x.length = 32 ∧
      ops = toPayNullData (x ++ padOf b seed ++ leBytes 4 nonce.toNat) ∧ payNullData ops = true ∧
      extractKey ops = some (2 :: x) ∧ extractHash ops = some x ∧ Matches l (opsData ops)) ∧
    (createScript C b secret filter seed = none ↔ ∀ x, secretToPublic C secret = some (2 :: x) → ∀ nonce : UInt32, nonce ≠ startOf b seed →
      ¬ Matches l (opsData (toPayNullData (x ++ padOf b seed ++ leBytes 4 nonce.toNat)))) := by
  have hpad := pad_length (b := b) seed
  cases hp : secretToPublic C secret with
  | none =>
    have e : createScript C b secret filter seed = none := by unfold createScript; rw [hp]
    rw [e]
    exact ⟨fun _ h => (by cases h), ⟨fun _ x h => (by cases h), fun _ => rfl⟩⟩
  | some point =>
    obtain ⟨hv, hpt⟩ := secretToPublic_some hp
    by_cases he : isEvenKey point = true
    · obtain ⟨x, hx, hxl⟩ := even_form (by rw [← hpt]; exact he)
      have hx : point = 2 :: x := hpt.trans hx
      have e : createScript C b secret filter seed =
          mineLoop (trial b filter (x ++ padOf b seed)) (startOf b seed) (2 ^ 32) (startOf b seed + 1) := by
        unfold createScript
        rw [hp]
        dsimp only
        rw [he]
        simp only [Bool.not_true, Bool.false_eq_true, if_false]
        rw [hx]
        have : ((2 :: x).drop 1).take 32 = x := by simp [hxl]
        rw [this]
      have hh1 : 32 ≤ (x ++ padOf b seed).length := by simp; omega
      have hh2 : (x ++ padOf b seed).length ≤ 76 := by simp; omega
      rw [e]
      refine ⟨?_, ?_⟩
      · intro ops h
        obtain ⟨n, h1, h2⟩ := mine_some _ _ h
        obtain ⟨h3, h4⟩ := (trial_iff hf hm _ hh1 hh2 n ops).1 h2
        obtain ⟨h5, h6⟩ := nonceScript_data _ hh1 hh2 n
        subst h3
        refine ⟨x, n, by rw [hx], hxl, rfl, h5, ?_, ?_, h4⟩
        · unfold extractKey; rw [h6, Option.map_some, List.append_assoc, ← hxl, List.take_left]
        · unfold extractHash; rw [h6, Option.map_some, List.append_assoc, ← hxl, List.take_left]
      · rw [mine_iff]
        constructor
        · intro h y hy n hn hmat
          rw [hx] at hy
          have : y = x := by injection hy with hy; injection hy with _ hy; exact hy.symm
          subst this
          have := (trial_iff (b := b) hf hm _ hh1 hh2 n _).2 ⟨rfl, hmat⟩
          rw [h n hn] at this; cases this
        · intro h n hn
          cases ht : trial b filter (x ++ padOf b seed) n with
          | none => rfl
          | some ops => exact absurd ((trial_iff hf hm _ hh1 hh2 n ops).1 ht).2 (h x (by rw [hx]) n hn)
    · have e : createScript C b secret filter seed = none := by
        unfold createScript; rw [hp]; dsimp only; rw [Bool.eq_false_iff.2 he]; rfl
      rw [e]
      refine ⟨fun _ h => (by cases h), ⟨fun _ x h => ?_, fun _ => rfl⟩⟩
      exfalso; apply he; injection h with h; rw [h]; rfl

theorem ephemeral_key (secret : Nat → Bytes) : ∀ k ≤ 255, (∀ s, ephemeralLoop C secret k = some s → ∃ n < 255, s = secret n ∧
      ∃ x, secretToPublic C s = some (2 :: x)) ∧
    (ephemeralLoop C secret k = none → ∀ n < 255, 255 - k ≤ n → ∀ x, secretToPublic C (secret n) ≠ some (2 :: x)) := by
  intro k
  induction k with
  | zero => intro _; exact ⟨fun s h => (by cases h), fun _ n h1 h2 => by omega⟩
  | succ k ih =>
    intro hk
    obtain ⟨i1, i2⟩ := ih (by omega)
    have step : (∃ x, secretToPublic C (secret (255 - (k + 1))) = some (2 :: x) ∧ ephemeralLoop C secret (k + 1) = some (secret (255 - (k + 1)))) ∨
        ((∀ x, secretToPublic C (secret (255 - (k + 1))) ≠ some (2 :: x)) ∧ ephemeralLoop C secret (k + 1) = ephemeralLoop C secret k) := by
      have hrec : ephemeralLoop C secret (k + 1) = match secretToPublic C (secret (255 - (k + 1))) with
        | some point => if isEvenKey point then some (secret (255 - (k + 1))) else ephemeralLoop C secret k
        | none => ephemeralLoop C secret k := rfl
      rw [hrec]
      cases hp : secretToPublic C (secret (255 - (k + 1))) with
      | none => exact .inr ⟨fun x h => (by cases h), rfl⟩
      | some point =>
        dsimp only
        by_cases he : isEvenKey point = true
        · rw [if_pos he]
          obtain ⟨-, hpt⟩ := secretToPublic_some hp
          obtain ⟨x, hx, -⟩ := even_form (by rw [← hpt]; exact he)
          exact .inl ⟨x, by rw [hpt.trans hx], rfl⟩
        · rw [if_neg he]
          refine .inr ⟨fun x h => he ?_, rfl⟩
          injection h with h; rw [h]; rfl
    rcases step with ⟨x, h1, h2⟩ | ⟨h1, h2⟩
    · rw [h2]
      refine ⟨fun s h => ⟨255 - (k + 1), by omega, (Option.some.inj h).symm, x, ?_⟩, fun h => by cases h⟩
      rw [← Option.some.inj h, h1]
    · rw [h2]
      refine ⟨i1, fun h n hn hk' => ?_⟩
      rcases Nat.eq_or_lt_of_le hk' with e | e
      · rw [← e]; exact h1
      · exact i2 h n hn (by omega)

/-- **C67** An ephemeral key made of a seed is one of 255 keyed hashes of the seed and its public key is valid and even; it fails only if
none of them is. -/
theorem C67_ephemeral (seed : Bytes) (hs : seed.length ≤ 100000) :
    (∀ s, createEphemeral C b seed = some s → ∃ n < 255, s = Mac.hmac Spec.Hash.sha256.digest 64 (Radix.ascii "Stealth seed") (UInt8.ofNat n :: seed) ∧
      ∃ x, secretToPublic C s = some (2 :: x)) ∧
    (createEphemeral C b seed = none ↔ ∀ n < 255, ∀ x,
      secretToPublic C (Mac.hmac Spec.Hash.sha256.digest 64 (Radix.ascii "Stealth seed") (UInt8.ofNat n :: seed)) ≠ some (2 :: x)) := by
  have hh : ∀ n, nonceSecret b seed n = Mac.hmac Spec.Hash.sha256.digest 64 (Radix.ascii "Stealth seed") (UInt8.ofNat n :: seed) := by
    intro n
    have := Hmac.C59_hmac (Hash.Standard.sha256 (b := b)) true (Radix.ascii "Stealth seed") (UInt8.ofNat n :: seed) (by decide) (by simp; omega)
    exact this
  obtain ⟨k1, k2⟩ := ephemeral_key (C := C) (nonceSecret b seed) 255 (by omega)
  simp only [hh] at k1 k2
  unfold createEphemeral
  refine ⟨k1, fun h n hn => k2 h n hn (by omega), fun h => ?_⟩
  cases hc : ephemeralLoop C (nonceSecret b seed) 255 with
  | none => rfl
  | some s =>
    obtain ⟨n, hn, h1, x, h2⟩ := k1 s hc
    rw [h1] at h2
    exact absurd h2 (h n hn x)

/-! ## Sender and receiver -/

theorem receiver_some {scan spend : Bytes} {filter : Binary} {v : UInt8} {r : Receiver} (h : receiver C scan spend filter v = some r) :
    ∃ S Q, secretToPublic C scan = some S ∧ secretToPublic C spend = some Q ∧ r.scan = scan ∧ r.spend = spend ∧ r.spendPublic = Q ∧ r.version = v ∧
      r.address.scan = S ∧ r.address.spends = [Q] ∧ r.address.filter = filter ∧ r.address.valid = true := by
  unfold receiver at h
  cases hs : secretToPublic C scan with
  | none => rw [hs] at h; cases h
  | some S =>
    cases hq : secretToPublic C spend with
    | none => rw [hs, hq] at h; cases h
    | some Q =>
      rw [hs, hq] at h
      dsimp only at h
      split at h
      · rename_i hv
        injection h with h; subst h
        refine ⟨S, Q, rfl, rfl, rfl, rfl, rfl, rfl, ?_⟩
        dsimp only
        unfold Address.ofParts at hv ⊢
        simp only [List.cons_ne_nil, if_false] at hv ⊢
        split at hv
        · cases hv
        · rename_i h1
          rw [if_neg h1]
          split at hv
          · cases hv
          · rename_i h2; rw [if_neg h2]; exact ⟨rfl, rfl, rfl, rfl⟩
      · cases h

/-- **C67** What a sender makes for the address of a receiver reaches the receiver: from the stealth script the receiver extracts the ephemeral
key, derives from it the payment address that the sender paid, and derives the secret that spends from that address. The script
matches the filter. -/
theorem C67_payment {scan spend : Bytes} {filter : Binary} {v : UInt8} {r : Receiver} (hr : receiver C scan spend filter v = some r)
    (e seed : Bytes) (f : Binary) (l : List Bool) (hf : Holds f l) (hm : f.bytes.length ≤ maxSize)
    {ops : List Op} {a : Wallet.Address} (hs : sender C b e r.address seed f v = some (ops, a)) :
    ∃ (E s : Bytes) (p : P), secretToPublic C e = some E ∧ extractKey ops = some E ∧ r.deriveAddress C b E = some a ∧ r.derivePrivate C b E = some s ∧
      p ≠ 0 ∧ secretToPublic C s = some (C.compressed p) ∧ a = Wallet.Address.ofHash b (hash160 (C.compressed p)) v ∧ Matches l (opsData ops) := by
  obtain ⟨S, Q, h1, h2, h3, h4, h5, h6, h7, h8, -, -⟩ := receiver_some hr
  unfold sender at hs
  cases hE : secretToPublic C e with
  | none => rw [hE] at hs; cases hs
  | some E =>
    rw [hE, h8, h7] at hs
    dsimp only at hs
    cases hu : uncoverPublic C b S e Q with
    | none => rw [hu] at hs; cases hs
    | some K =>
      rw [hu] at hs
      dsimp only at hs
      cases hc : createScript C b e f seed with
      | none => rw [hc] at hs; cases hs
      | some o =>
        rw [hc] at hs
        dsimp only at hs
        injection hs with hs
        injection hs with ho ha
        subst ho
        obtain ⟨x, n, g1, g2, g3, g4, g5, g6, g7⟩ := (C67_script e seed f l hf hm).1 o hc
        rw [hE] at g1
        have gE : E = 2 :: x := Option.some.inj g1
        have hu' : uncoverPublic C b E scan Q = some K := by rw [← (C67_shared e scan E S hE h1 Q).1]; exact hu
        obtain ⟨p1, p2⟩ := C67_private (b := b) scan spend E Q h2
        rw [hu'] at p1 p2
        obtain ⟨s, hsx⟩ := Option.isSome_iff_exists.1 (p2.2 rfl)
        rw [hsx, Option.bind_some] at p1
        obtain ⟨hv1, hv2⟩ := secretToPublic_some p1
        refine ⟨E, s, beNat s • C.generator, rfl, by rw [g5, gE], ?_, ?_, valid_smul C hv1.1 hv1.2, by rw [p1, hv2], ?_, g7⟩
        · unfold Receiver.deriveAddress
          rw [h3, h5, hu', h6, ← ha]; rfl
        · unfold Receiver.derivePrivate
          rw [h3, h4, hsx]
        · rw [← ha, hv2]
          exact C63_key_address _ (valid_smul C hv1.1 hv1.2) true v

/-! ## Addresses as text -/

/-- The published layout: version, options, scan key, number of spend keys, these keys, number of signatures, number of filter bits,
filter, then the checksum. -/
structure Layout where
  version : UInt8
  options : UInt8
  scan : Bytes
  keys : List Bytes
  signatures : UInt8
  bits : Nat
  filter : Bytes

structure Layout.OK (y : Layout) : Prop where
  options : y.options ≤ 1
  scan : y.scan.length = 33
  keys : ∀ k ∈ y.keys, k.length = 33
  count : y.keys.length < 256
  bits : y.bits ≤ 32
  filter : y.filter.length = (y.bits + 7) / 8

def Layout.bytes (y : Layout) : Bytes :=
  [y.version, y.options] ++ y.scan ++ [UInt8.ofNat y.keys.length] ++ y.keys.flatten ++ [y.signatures, UInt8.ofNat y.bits] ++ y.filter

/-- The address that a layout stands for. -/
def Layout.address (y : Layout) : Address :=
  Address.ofParts (ofData y.bits y.filter) y.scan (if y.options = 1 then y.scan :: y.keys else y.keys) y.signatures y.version

theorem byteCount_eq (n : Nat) : byteCount n = (n + 7) / 8 := by unfold byteCount; split <;> omega

theorem flatten_length {keys : List Bytes} (h : ∀ k ∈ keys, k.length = 33) : keys.flatten.length = 33 * keys.length := by
  induction keys with
  | nil => rfl
  | cons k ks ih =>
    rw [List.flatten_cons, List.length_append, h k (by simp), ih (fun x hx => h x (by simp [hx])), List.length_cons]
    omega

theorem slice_some {d : Bytes} {i n : Nat} {x : Bytes} (h : slice d i n = some x) : x = (d.drop i).take n ∧ i + n ≤ d.length ∧ x.length = n := by
  unfold slice at h
  split at h
  · rename_i hl
    injection h with h
    exact ⟨h.symm, hl, by rw [← h]; simp; omega⟩
  · cases h

theorem slice_of {d : Bytes} {i n : Nat} (h : i + n ≤ d.length) : slice d i n = some ((d.drop i).take n) := if_pos h

/-- Cutting data in pieces of 33 bytes. -/
theorem cut_some (d : Bytes) (i n : Nat) (h : i + 33 * n ≤ d.length) :
    ∃ keys, (List.range n).mapM (fun k => slice d (i + 33 * k) 33) = some keys ∧ keys.length = n ∧ (∀ k ∈ keys, k.length = 33) ∧
      keys.flatten = (d.drop i).take (33 * n) := by
  induction n with
  | zero => exact ⟨[], rfl, rfl, by simp, by simp⟩
  | succ n ih =>
    obtain ⟨keys, h1, h2, h3, h4⟩ := ih (by omega)
    have hsl := slice_of (d := d) (i := i + 33 * n) (n := 33) (by omega)
    refine ⟨keys ++ [(d.drop (i + 33 * n)).take 33], ?_, by simp [h2], ?_, ?_⟩
    · rw [List.range_succ, List.mapM_append, h1]
      simp [hsl]
    · intro k hk
      rcases List.mem_append.1 hk with hk | hk
      · exact h3 k hk
      · rw [List.mem_singleton.1 hk]; simp; omega
    · rw [List.flatten_append, h4, List.flatten_singleton, Nat.mul_succ, List.take_add, List.drop_drop]

theorem byte_take {d : Bytes} {i : Nat} {v : UInt8} (h : d[i]? = some v) : (d.drop i).take 1 = [v] := by
  obtain ⟨hi, rfl⟩ := List.getElem?_eq_some_iff.1 h
  rw [List.drop_eq_getElem_cons hi]
  rfl

theorem byte_of {d : Bytes} {i : Nat} (h : i < d.length) : ∃ v, d[i]? = some v := ⟨_, List.getElem?_eq_getElem h⟩

theorem layout_length {y : Layout} (h : y.OK) : y.bytes.length = 38 + 33 * y.keys.length + (y.bits + 7) / 8 := by
  unfold Layout.bytes
  simp only [List.length_append, List.length_cons, List.length_nil, flatten_length h.keys, h.scan, h.filter]
  omega

/-- Reading data of a valid checksum either stops with the invalid address, or finds a layout. -/
theorem fromChunk_eq (d : Bytes) (hd : d.length ≤ 100000) :
    (∃ y : Layout, y.OK ∧ Checked d y.bytes ∧ Address.fromChunk b d = some y.address) ∨
    ((¬ ∃ y : Layout, y.OK ∧ Checked d y.bytes) ∧ Address.fromChunk b d = some Address.none) := by
  by_cases hc : d.length < 42 ∨ verifyChunk b d = false
  · refine .inr ⟨?_, by unfold Address.fromChunk; rw [if_pos hc]⟩
    rintro ⟨y, hy, hk⟩
    have hl := checked_length hk
    have hy' := layout_length hy
    rcases hc with hc | hc
    · omega
    · have := (verifyChunk_iff (b := b) d hd).2 ⟨by omega, by rw [checked_take hk]; exact hk⟩
      rw [this] at hc; cases hc
  · have hchk : Checked d (d.take (d.length - 4)) := ((verifyChunk_iff (b := b) d hd).1 (by
      cases hv : verifyChunk b d with
      | true => rfl
      | false => exact absurd (.inr hv) hc)).2
    have h42 : 42 ≤ d.length := by
      by_contra h; exact hc (.inl (by omega))
    obtain ⟨version, e0⟩ := byte_of (d := d) (i := 0) (by omega)
    obtain ⟨options, e1⟩ := byte_of (d := d) (i := 1) (by omega)
    have e2 := slice_of (d := d) (i := 2) (n := 33) (by omega)
    obtain ⟨count, e3⟩ := byte_of (d := d) (i := 35) (by omega)
    -- a layout fixes what is found at each place
    have find : ∀ y : Layout, y.OK → Checked d y.bytes → version = y.version ∧ options = y.options ∧ (d.drop 2).take 33 = y.scan ∧
        count = UInt8.ofNat y.keys.length ∧ d.length = 42 + 33 * y.keys.length + (y.bits + 7) / 8 ∧
        d[37 + 33 * y.keys.length]? = some (UInt8.ofNat y.bits) := by
      intro y hy hk
      have hlen := checked_length hk
      have hyl := layout_length hy
      have hd' : d = y.bytes ++ (sha256d y.bytes).take 4 := hk
      have hb : y.bytes = y.version :: y.options :: (y.scan ++ ([UInt8.ofNat y.keys.length] ++ (y.keys.flatten ++ ([y.signatures, UInt8.ofNat y.bits] ++ y.filter)))) := by
        unfold Layout.bytes; simp
      have hs := hy.scan
      have hf := flatten_length hy.keys
      refine ⟨?_, ?_, ?_, ?_, by omega, ?_⟩
      · rw [hd', hb] at e0; simpa using e0.symm
      · rw [hd', hb] at e1; simpa using e1.symm
      · rw [hd', hb]; simp [hs]
      · rw [hd', hb] at e3; simp [List.getElem?_append, hs] at e3; exact e3.symm
      · rw [hd', hb]
        have e : 37 + 33 * y.keys.length = (35 + 33 * y.keys.length) + 2 := by omega
        rw [e]
        simp only [List.cons_append, List.nil_append, List.getElem?_cons_succ, List.append_assoc]
        rw [List.getElem?_append_right (by omega), hs, show 35 + 33 * y.keys.length - 33 = (1 + 33 * y.keys.length) + 1 by omega,
          List.getElem?_cons_succ, List.getElem?_append_right (by omega), hf,
          show 1 + 33 * y.keys.length - 33 * y.keys.length = 1 by omega]
        rfl
    by_cases ho : 1 < options
    · refine .inr ⟨?_, ?_⟩
      · rintro ⟨y, hy, hk⟩
        obtain ⟨-, f2, -⟩ := find y hy hk
        have := hy.options
        rw [← f2] at this
        exact absurd ho (UInt8.not_lt.2 this)
      · unfold Address.fromChunk
        rw [if_neg hc, e0, e1]
        simp [ho]
    · by_cases hl : d.length < 42 + count.toNat * 33
      · refine .inr ⟨?_, ?_⟩
        · rintro ⟨y, hy, hk⟩
          obtain ⟨-, -, -, f4, f5, -⟩ := find y hy hk
          rw [f4, UInt8.toNat_ofNat', Nat.mod_eq_of_lt (by have := hy.count; omega)] at hl
          omega
        · unfold Address.fromChunk
          rw [if_neg hc, e0, e1, e2, e3]
          simp [ho, hl]
      · obtain ⟨keys, k1, k2, k3, k4⟩ := cut_some d 36 count.toNat (by omega)
        obtain ⟨signatures, e4⟩ := byte_of (d := d) (i := 36 + 33 * count.toNat) (by omega)
        obtain ⟨bits, e5⟩ := byte_of (d := d) (i := 37 + 33 * count.toNat) (by omega)
        have hcnt := count.toNat_lt
        have find' : ∀ y : Layout, y.OK → Checked d y.bytes → bits.toNat = y.bits ∧ d.length = 42 + 33 * count.toNat + (y.bits + 7) / 8 := by
          intro y hy hk
          obtain ⟨-, -, -, f4, f5, f6⟩ := find y hy hk
          have hc' : count.toNat = y.keys.length := by
            rw [f4, UInt8.toNat_ofNat', Nat.mod_eq_of_lt (by have := hy.count; omega)]
          rw [← hc', e5] at f6
          refine ⟨?_, by rw [f5, hc']⟩
          rw [Option.some.inj f6, UInt8.toNat_ofNat', Nat.mod_eq_of_lt (by have := hy.bits; omega)]
        by_cases hb : 32 < bits.toNat
        · refine .inr ⟨?_, ?_⟩
          · rintro ⟨y, hy, hk⟩
            have := (find' y hy hk).1
            have := hy.bits
            omega
          · unfold Address.fromChunk
            rw [if_neg hc, e0, e1, e2, e3]
            simp [ho, hl, k1, e4, e5, hb]
        · by_cases hn : d.length ≠ 42 + count.toNat * 33 + byteCount bits.toNat
          · refine .inr ⟨?_, ?_⟩
            · rintro ⟨y, hy, hk⟩
              obtain ⟨f1, f2⟩ := find' y hy hk
              rw [byteCount_eq, f1] at hn
              omega
            · unfold Address.fromChunk
              rw [if_neg hc, e0, e1, e2, e3]
              simp [ho, hl, k1, e4, e5, hb, hn]
          · have hn : d.length = 42 + count.toNat * 33 + byteCount bits.toNat := not_not.1 hn
            have hbc := byteCount_eq bits.toNat
            have e6 := slice_of (d := d) (i := 38 + 33 * count.toNat) (n := byteCount bits.toNat) (by omega)
            left
            refine ⟨⟨version, options, (d.drop 2).take 33, keys, signatures, bits.toNat, (d.drop (38 + 33 * count.toNat)).take (byteCount bits.toNat)⟩, ?_, ?_, ?_⟩
            · exact ⟨UInt8.not_lt.1 ho, by simp; omega, k3, by rw [k2]; exact hcnt, by simpa using hb, by simp; omega⟩
            · refine cast ?_ hchk
              congr 1
              unfold Layout.bytes
              dsimp only
              rw [k2, k4, UInt8.ofNat_toNat, UInt8.ofNat_toNat]
              have t0 : [version, options] = d.take 2 := by
                have a := byte_take e0; have c := byte_take e1
                rw [show (2 : Nat) = 1 + 1 from rfl, List.take_add, ← List.drop_zero (l := d), a, List.drop_drop, c]; rfl
              have t1 : [count] = (d.drop 35).take 1 := (byte_take e3).symm
              have t2 : [signatures, bits] = (d.drop (36 + 33 * count.toNat)).take 2 := by
                rw [show (2 : Nat) = 1 + 1 from rfl, List.take_add, byte_take e4, List.drop_drop, show 36 + 33 * count.toNat + 1 = 37 + 33 * count.toNat by omega, byte_take e5]; rfl
              rw [t0, t1, t2, ← List.take_add, ← List.take_add, ← List.take_add]
              rw [show 2 + 33 + 1 + 33 * count.toNat = 36 + 33 * count.toNat by omega, ← List.take_add]
              rw [show 36 + 33 * count.toNat + 2 = 38 + 33 * count.toNat by omega, ← List.take_add]
              congr 1
              omega
            · unfold Address.fromChunk
              rw [if_neg hc, e0, e1, e2, e3]
              simp [ho, hl, k1, e4, e5, hb, hn, e6, Layout.address]

/-- **C67** No read of the parser is outside of the data. -/
theorem C67_address_safe (d : Bytes) (hd : d.length ≤ 100000) : Address.fromChunk b d ≠ none := by
  rcases fromChunk_eq (b := b) d hd with ⟨y, -, -, h⟩ | ⟨-, h⟩ <;> rw [h] <;> simp

theorem ofParts_valid (f : Binary) (scan : Bytes) (keys : List Bytes) (s v : UInt8) :
    (Address.ofParts f scan keys s v).valid = true ↔ keys.length ≤ 255 ∧ f.bits ≤ 32 := by
  unfold Address.ofParts
  dsimp only
  by_cases hk : keys = []
  · subst hk
    simp only [if_true, List.length_singleton, List.length_nil]
    rw [if_neg (by omega)]
    split
    · simp [Address.none]; omega
    · simp; omega
  · rw [if_neg hk]
    split
    · simp [Address.none]; omega
    · split
      · simp [Address.none]; omega
      · simp; omega

/-- **C67** Data is accepted as an address exactly if it is a layout followed by its checksum, with at most 255 spend keys (the scan key
counting as one if it is reused); it is then the address of that layout. -/
theorem C67_address_accepts (d : Bytes) (hd : d.length ≤ 100000) (a : Address) (h : Address.fromChunk b d = some a) :
    (a.valid = true ↔ ∃ y : Layout, y.OK ∧ Checked d y.bytes ∧ y.keys.length + y.options.toNat ≤ 255) ∧
    (a.valid = true → ∃ y : Layout, y.OK ∧ Checked d y.bytes ∧ a = y.address) := by
  have hval : ∀ y : Layout, y.OK → (y.address.valid = true ↔ y.keys.length + y.options.toNat ≤ 255) := by
    intro y hy
    unfold Layout.address
    rw [ofParts_valid]
    have hb : (ofData y.bits y.filter).bits = y.bits := rfl
    rw [hb]
    have h1 := hy.options
    have h2 := hy.bits
    have h3 := hy.count
    have ho : y.options.toNat ≤ 1 := UInt8.le_iff_toNat_le.1 h1
    by_cases e : y.options = 1
    · rw [if_pos e, e]; simp; omega
    · have : y.options.toNat ≠ 1 := fun hh => e (UInt8.toNat_inj.1 hh)
      rw [if_neg e]; omega
  have huniq : ∀ y z : Layout, y.OK → z.OK → Checked d y.bytes → Checked d z.bytes → y.keys.length = z.keys.length ∧ y.options = z.options := by
    intro y z hy hz h1 h2
    have e : y.bytes = z.bytes := by
      have a1 := checked_take h1; have a2 := checked_take h2
      exact a1.symm.trans a2
    have hb : ∀ y : Layout, y.bytes = y.version :: y.options :: (y.scan ++ ([UInt8.ofNat y.keys.length] ++ (y.keys.flatten ++ ([y.signatures, UInt8.ofNat y.bits] ++ y.filter)))) := by
      intro y; unfold Layout.bytes; simp
    rw [hb, hb] at e
    injection e with _ e
    injection e with e1 e
    obtain ⟨-, e⟩ := List.append_inj e (by rw [hy.scan, hz.scan])
    injection e with e2 _
    have := congrArg UInt8.toNat e2
    rw [UInt8.toNat_ofNat', UInt8.toNat_ofNat', Nat.mod_eq_of_lt (by have := hy.count; omega), Nat.mod_eq_of_lt (by have := hz.count; omega)] at this
    exact ⟨this, e1⟩
  rcases fromChunk_eq (b := b) d hd with ⟨y, hy, hk, e⟩ | ⟨hn, e⟩
  · rw [h] at e
    have e := Option.some.inj e
    subst e
    refine ⟨⟨fun hv => ⟨y, hy, hk, (hval y hy).1 hv⟩, ?_⟩, fun _ => ⟨y, hy, hk, rfl⟩⟩
    rintro ⟨z, hz, hzk, hle⟩
    obtain ⟨u1, u2⟩ := huniq y z hy hz hk hzk
    rw [hval y hy, u1, u2]; exact hle
  · rw [h] at e
    have e := Option.some.inj e
    subst e
    refine ⟨⟨fun hv => (by cases hv), ?_⟩, fun hv => by cases hv⟩
    rintro ⟨z, hz, hzk, -⟩
    exact absurd ⟨z, hz, hzk⟩ hn

/-- **C67** An address built of its parts is read back from its data and from its text, if the scan key is among its spend keys
only as the first (others are the counterexamples below). -/
theorem C67_address_text (f : Binary) (l : List Bool) (hf : Holds f l) (scan : Bytes) (keys : List Bytes) (s v : UInt8)
    (hscan : scan.length = 33) (hkeys : ∀ k ∈ keys, k.length = 33) (hfirst : ∀ k ∈ keys.tail, k ≠ scan) (a : Address)
    (ha : a = Address.ofParts f scan keys s v) (hv : a.valid = true) :
    Address.fromChunk b (a.toChunk b) = some a ∧ Address.fromString b (a.encoded b) = some a := by
  obtain ⟨hn, hb⟩ := (ofParts_valid f scan keys s v).1 (by rw [← ha]; exact hv)
  -- the spend keys of the address
  obtain ⟨spends, hsp, hsl, hsk, hst, hsn⟩ : ∃ spends : List Bytes, (if keys = [] then [scan] else keys) = spends ∧ spends.length ≤ 255 ∧
      (∀ k ∈ spends, k.length = 33) ∧ (∀ k ∈ spends.tail, k ≠ scan) ∧ spends ≠ [] := by
    by_cases hk : keys = []
    · exact ⟨[scan], by rw [if_pos hk], by simp, by simpa using hscan, by simp, by simp⟩
    · exact ⟨keys, by rw [if_neg hk], hn, hkeys, hfirst, hk⟩
  obtain ⟨sig, hsig, hcoerce⟩ : ∃ sig : UInt8, (if s = 0 ∨ spends.length < s.toNat then UInt8.ofNat spends.length else s) = sig ∧
      ¬ (sig = 0 ∨ spends.length < sig.toNat) := by
    refine ⟨_, rfl, ?_⟩
    have hpos : 0 < spends.length := List.length_pos_iff.2 hsn
    split
    · intro h
      have hm : (UInt8.ofNat spends.length).toNat = spends.length := by
        rw [UInt8.toNat_ofNat']; exact Nat.mod_eq_of_lt (by omega)
      rcases h with h | h
      · rw [h] at hm; simp at hm; omega
      · omega
    · rename_i h; exact h
  have hae : a = ⟨true, v, scan, spends, sig, f⟩ := by
    rw [ha]
    unfold Address.ofParts
    dsimp only
    rw [hsp, if_neg (by omega), if_neg (by omega), hsig]
  -- its layout
  obtain ⟨o, rest, hreuse, hrest, hcons⟩ : ∃ (o : UInt8) (rest : List Bytes), (a.reuse = decide (o = 1)) ∧ spends.filter (· != scan) = rest ∧
      (o = 0 ∧ rest = spends ∨ o = 1 ∧ spends = scan :: rest) := by
    match spends, hst, hsn with
    | k :: ks, hst, _ =>
      have hf : ks.filter (· != scan) = ks := by
        rw [List.filter_eq_self]
        intro x hx; simpa using hst x (by simpa using hx)
      by_cases hk : k = scan
      · refine ⟨1, ks, ?_, ?_, .inr ⟨rfl, by rw [hk]⟩⟩
        · rw [hae]; simp [Address.reuse, hk]
        · rw [List.filter_cons, hk]; simp [hf]
      · refine ⟨0, k :: ks, ?_, ?_, .inl ⟨rfl, rfl⟩⟩
        · rw [hae]
          simp only [Address.reuse, List.contains_eq_mem]
          have : scan ∉ k :: ks := by
            intro hh
            rcases List.mem_cons.1 hh with hh | hh
            · exact hk hh.symm
            · exact hst scan (by simpa using hh) rfl
          simp [this]
        · rw [List.filter_cons, hf]; simp [hk]
  have hlen : rest.length ≤ 255 ∧ UInt8.ofNat spends.length - (if o = 1 then 1 else 0) = UInt8.ofNat rest.length := by
    rcases hcons with ⟨rfl, h⟩ | ⟨rfl, h⟩
    · rw [h]; exact ⟨hsl, by simp⟩
    · rw [h] at hsl ⊢
      refine ⟨by simp at hsl; omega, ?_⟩
      rw [if_pos rfl, List.length_cons, UInt8.ofNat_add]
      exact UInt8.add_sub_cancel _ _
  have hrk : ∀ k ∈ rest, k.length = 33 := by
    intro k hk
    rcases hcons with ⟨-, h⟩ | ⟨-, h⟩
    · rw [h] at hk; exact hsk k hk
    · exact hsk k (by rw [h]; simp [hk])
  let y : Layout := ⟨v, o, scan, rest, sig, f.bits, f.bytes⟩
  have hy : y.OK := by
    refine ⟨?_, hscan, hrk, ?_, hb, ?_⟩
    · show o ≤ 1
      rcases hcons with ⟨rfl, -⟩ | ⟨rfl, -⟩ <;> decide
    · show rest.length < 256; omega
    · show f.bytes.length = _; rw [holds_size hf, byteCount_eq]
  have hpay : a.payload = y.bytes := by
    unfold Address.payload Layout.bytes
    rw [hreuse, hae]
    dsimp only
    rw [hrest]
    have e1 : (if decide (o = 1) = true then (1 : UInt8) else 0) = o := by
      rcases hcons with ⟨rfl, -⟩ | ⟨rfl, -⟩ <;> rfl
    have e2 := hlen.2
    simp only [decide_eq_true_eq] at e1 ⊢
    rw [e2, e1]
  have hchk : Checked (a.toChunk b) y.bytes := by
    unfold Address.toChunk Checked Wallet.insertChecksum Hd.insertChecksum
    rw [hpay, hash_eq _ (by rw [layout_length hy]; have := hy.count; have := hy.bits; omega)]
  have hcl : (a.toChunk b).length ≤ 100000 := by
    rw [checked_length hchk, layout_length hy]; have := hy.count; have := hy.bits; omega
  have hfeq : ofData f.bits f.bytes = f := by
    have h1 := C66_data f.bits f.bytes
    obtain ⟨h2, k, hk, h3⟩ := hf
    have hfb : firstBits f.bits f.bytes = l := by
      unfold firstBits
      rw [h3, h2, List.append_assoc]
      exact List.take_left
    rw [hfb] at h1
    have hs1 := holds_size h1
    obtain ⟨g1, j, hj, g3⟩ := h1
    have hs2 : f.bytes.length = byteCount f.bits := holds_size ⟨h2, k, hk, h3⟩
    have : (ofData f.bits f.bytes).bytes = f.bytes := by
      apply Bit.bitsOf_inj
      have c1 := congrArg List.length g3
      have c2 := congrArg List.length h3
      have hbb : (ofData f.bits f.bytes).bits = f.bits := rfl
      rw [hbb] at hs1
      rw [Bit.bitsOf_length, List.length_append, List.length_replicate] at c1 c2
      rw [g3, h3, show j = k by omega]
    have hb2 : (ofData f.bits f.bytes).bits = f.bits := rfl
    cases f with
    | mk fb fy =>
      cases hx : ofData fb fy with
      | mk xb xy => rw [hx] at this hb2; dsimp only at this hb2; rw [this, hb2]
  have hadr : y.address = a := by
    unfold Layout.address
    show Address.ofParts (ofData f.bits f.bytes) scan (if o = 1 then scan :: rest else rest) sig v = a
    rw [hfeq]
    have hspe : (if o = 1 then scan :: rest else rest) = spends := by
      rcases hcons with ⟨rfl, h⟩ | ⟨rfl, h⟩
      · rw [h]; rfl
      · rw [h]; rfl
    rw [hspe, hae]
    unfold Address.ofParts
    dsimp only
    rw [if_neg hsn, if_neg (by omega), if_neg (by omega), if_neg hcoerce]
  have hmain : Address.fromChunk b (a.toChunk b) = some a := by
    rcases fromChunk_eq (b := b) (a.toChunk b) hcl with ⟨z, hz, hzk, e⟩ | ⟨hn, -⟩
    · rw [e]
      congr 1
      have e : z.bytes = y.bytes := by
        have a1 := checked_take hzk; have a2 := checked_take hchk
        exact a1.symm.trans a2
      rw [← hadr]
      -- the layout is determined by its bytes
      have hb' : ∀ y : Layout, y.bytes = y.version :: y.options :: (y.scan ++ ([UInt8.ofNat y.keys.length] ++ (y.keys.flatten ++ ([y.signatures, UInt8.ofNat y.bits] ++ y.filter)))) := by
        intro y; unfold Layout.bytes; simp
      rw [hb', hb'] at e
      injection e with q1 e
      injection e with q2 e
      obtain ⟨q3, e⟩ := List.append_inj e (by rw [hz.scan, hy.scan])
      injection e with q4 e
      have q4 : z.keys.length = y.keys.length := by
        have := congrArg UInt8.toNat q4
        rwa [UInt8.toNat_ofNat', UInt8.toNat_ofNat', Nat.mod_eq_of_lt (by have := hz.count; omega), Nat.mod_eq_of_lt (by have := hy.count; omega)] at this
      change z.keys.flatten ++ _ = y.keys.flatten ++ _ at e
      obtain ⟨q5, e⟩ := List.append_inj e (by rw [flatten_length hz.keys, flatten_length hy.keys, q4])
      injection e with q6 e
      injection e with q7 q8
      change z.filter = y.filter at q8
      have q7 : z.bits = y.bits := by
        have := congrArg UInt8.toNat q7
        rwa [UInt8.toNat_ofNat', UInt8.toNat_ofNat', Nat.mod_eq_of_lt (by have := hz.bits; omega), Nat.mod_eq_of_lt (by have := hy.bits; omega)] at this
      have flat : ∀ (k m : List Bytes), (∀ x ∈ k, x.length = 33) → (∀ x ∈ m, x.length = 33) → k.length = m.length → k.flatten = m.flatten → k = m := by
        intro k
        induction k with
        | nil => intro m _ _ hl _; exact (List.eq_nil_of_length_eq_zero hl.symm).symm
        | cons x k ih =>
          intro m h1 h2 hl he
          cases m with
          | nil => simp at hl
          | cons z m =>
            rw [List.flatten_cons, List.flatten_cons] at he
            obtain ⟨r1, r2⟩ := List.append_inj he (by rw [h1 x (by simp), h2 z (by simp)])
            rw [r1, ih m (fun w hw => h1 w (by simp [hw])) (fun w hw => h2 w (by simp [hw])) (by simpa using hl) r2]
      have q9 : z.keys = y.keys := flat _ _ hz.keys hy.keys q4 q5
      unfold Layout.address
      rw [q1, q2, q3, q6, q7, q8, q9]
    · exact absurd ⟨y, hy, hchk⟩ hn
  refine ⟨hmain, ?_⟩
  unfold Address.fromString Address.encoded
  rw [Radix.C32_decode_encode]
  exact hmain

theorem sender_isSome {P : Type} [AddCommGroup P] [DecidableEq P] {C : Curve P} {b : Build} {e E S Q k seed : Bytes} {a : Address} {f : Binary} {v : UInt8} {o : List Op}
    (h1 : secretToPublic C e = some E) (h2 : a.spends = [Q]) (h3 : a.scan = S) (h4 : uncoverPublic C b S e Q = some k)
    (h5 : createScript C b e f seed = some o) : (sender C b e a seed f v).isSome = true := by
  unfold sender
  rw [h1, h2]
  dsimp only
  rw [h3, h4, h5]
  rfl

theorem addPoint_isSome {P : Type} [AddCommGroup P] [DecidableEq P] {C : Curve P} {n : Nat} {t : Bytes} (h0 : n • C.generator ≠ 0) (h : beNat t < C.order)
    (h1 : ¬ (n + beNat t) % C.order = 0) : (addPoint C (C.compressed (n • C.generator)) t).isSome = true := by
  unfold addPoint
  rw [C.parse_compressed _ h0]
  dsimp only
  rw [← add_nsmul, if_pos ⟨h, fun hh => h1 ((smul_zero_iff C _).1 hh)⟩]
  rfl

/-- A receiver, an ephemeral secret and a seed for which a payment is made (so the hypotheses of `C67_payment` are met). -/
theorem example_payment : ∃ r, receiver Toy.curve (beBytes 32 5) (beBytes 32 7) ⟨0, []⟩ 0 = some r ∧
    (sender Toy.curve Build.portable (beBytes 32 2) r.address [] ⟨0, []⟩ 0).isSome = true := by
  have h5 : secretToPublic Toy.curve (beBytes 32 5) = some (Toy.curve.compressed (5 • Toy.curve.generator)) := by
    rw [secretToPublic_of (by decide +kernel), show beNat (beBytes 32 5) = 5 by decide +kernel]
  have h7 : secretToPublic Toy.curve (beBytes 32 7) = some (Toy.curve.compressed (7 • Toy.curve.generator)) := by
    rw [secretToPublic_of (by decide +kernel), show beNat (beBytes 32 7) = 7 by decide +kernel]
  have h2 : secretToPublic Toy.curve (beBytes 32 2) = some (Toy.curve.compressed (2 • Toy.curve.generator)) := by
    rw [secretToPublic_of (by decide +kernel), show beNat (beBytes 32 2) = 2 by decide +kernel]
  refine ⟨⟨0, beBytes 32 5, beBytes 32 7, Toy.curve.compressed (7 • Toy.curve.generator),
    Address.ofParts ⟨0, []⟩ (Toy.curve.compressed (5 • Toy.curve.generator)) [Toy.curve.compressed (7 • Toy.curve.generator)] 0 0x2a⟩, ?_, ?_⟩
  · unfold receiver
    rw [h5, h7]
    dsimp only
    rw [if_pos ((ofParts_valid _ _ _ _ _).2 (by decide))]
  · have hs : sharedSecret Toy.curve Build.portable (beBytes 32 2) (Toy.curve.compressed (5 • Toy.curve.generator)) =
        some (HashFn.sha256Hash Build.portable true (Toy.curve.compressed (10 • Toy.curve.generator))) := by
      have := shared_eq (C := Toy.curve) (b := Build.portable) (s := beBytes 32 2) (t := beBytes 32 5) (by decide +kernel) (by decide +kernel)
      rwa [show beNat (beBytes 32 2) * beNat (beBytes 32 5) = 10 by decide +kernel, show beNat (beBytes 32 5) = 5 by decide +kernel] at this
    have hc : (createScript Toy.curve Build.portable (beBytes 32 2) ⟨0, []⟩ []).isSome = true := by decide +kernel
    have hlt : (beNat (HashFn.sha256Hash Build.portable true (Toy.curve.compressed (10 • Toy.curve.generator))) < Toy.curve.order) ∧
      ¬ (7 + beNat (HashFn.sha256Hash Build.portable true (Toy.curve.compressed (10 • Toy.curve.generator)))) % Toy.curve.order = 0 := by
      decide +kernel
    have ha : (addPoint Toy.curve (Toy.curve.compressed (7 • Toy.curve.generator))
        (HashFn.sha256Hash Build.portable true (Toy.curve.compressed (10 • Toy.curve.generator)))).isSome = true := by
      exact addPoint_isSome (C := Toy.curve) (n := 7) (by decide +kernel) hlt.1 hlt.2
    have hu : (uncoverPublic Toy.curve Build.portable (Toy.curve.compressed (5 • Toy.curve.generator)) (beBytes 32 2)
        (Toy.curve.compressed (7 • Toy.curve.generator))).isSome = true := by
      unfold uncoverPublic
      rw [hs, Option.bind_some]
      exact ha
    obtain ⟨k, hk⟩ := Option.isSome_iff_exists.1 hu
    obtain ⟨o, ho⟩ := Option.isSome_iff_exists.1 hc
    exact sender_isSome h2 rfl rfl hk ho

/-- **C67** (limit) An address that lists its scan key twice among its spend keys is valid, but what it writes is not read back as it. -/
theorem C67_address_text_limit : ∃ a : Address, a.valid = true ∧
    a = Address.ofParts ⟨0, []⟩ (2 :: List.replicate 32 1) [2 :: List.replicate 32 1, 2 :: List.replicate 32 1] 0 0 ∧
    Address.fromChunk Build.portable (a.toChunk Build.portable) = some .none := by
  refine ⟨_, by decide, rfl, ?_⟩
  decide +kernel

example : (Address.ofParts ⟨10, [0xff, 0xc0]⟩ (2 :: List.replicate 32 1) [3 :: List.replicate 32 1] 0 0x2a).valid = true := by decide
end Verif.Stealth
