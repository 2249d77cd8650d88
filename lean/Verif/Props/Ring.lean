import Verif.Model.Ring
import Verif.Spec.Ring
import Verif.Props.EcOperators
import Verif.Props.Hash
import Verif.Lemmas.ToyCurve
/-!
# C74: Borromean ring signatures
-/
namespace Verif.Ring
open Verif Verif.Ec Verif.Hd Verif.Spec.Ring
variable {P : Type} [AddCommGroup P] [DecidableEq P] {C : Curve P} {b : Sha.Build}

theorem sha_length (m : Bytes) : (Spec.Hash.sha256.digest m).length = 32 :=
  Hash.standard_length (Hash.Standard.sha256 (b := .portable)) m

theorem messages_parts (parts : List Bytes) (acc : List HashFn.WriterOp) :
    HashFn.messages (parts.map HashFn.WriterOp.write ++ [.flush]) = [parts.flatten, []] := by
  induction parts with
  | nil => rfl
  | cons p ps ih =>
    simp only [List.map_cons, List.cons_append, HashFn.messages]
    rw [ih]
    simp

theorem sink_eq (parts : List Bytes) (h : parts.flatten.length + 512 ≤ 2 ^ 61) : sink b parts = Spec.Hash.sha256.digest parts.flatten := by
  unfold sink
  have hm := messages_parts parts []
  rw [HashFn.C58_sha256_writer, hm]
  · simp only [List.flatMap_cons, List.flatMap_nil]
    rw [List.take_left' (sha_length _)]
  · rw [hm]
    intro x hx
    rcases List.mem_cons.1 hx with rfl | hx
    · exact h
    · rcases List.mem_singleton.1 hx with rfl
      simp

/-- **C74** The digest is the hash of the message and all the keys. -/
theorem C74_digest (message : Bytes) (rings : List (List Bytes)) (h : message.length + rings.flatten.flatten.length ≤ 2 ^ 60) :
    digest b message rings = Spec.Hash.sha256.digest (message ++ rings.flatten.flatten) := by
  unfold digest
  rw [sink_eq _ (by simp only [List.flatten_cons, List.length_append]; omega), List.flatten_cons]

theorem hash_eq (m R : Bytes) (i j : Nat) (h : m.length + R.length ≤ 1000) :
    borromeanHash b m R i j = Spec.Hash.sha256.digest (R ++ m ++ beBytes 4 i ++ beBytes 4 j) := by
  unfold borromeanHash
  rw [sink_eq _ (by simp; omega)]
  simp

theorem hash_challenge (m R : Bytes) (i j : Nat) (h : m.length + R.length ≤ 1000) :
    beNat (borromeanHash b m R i j) = challenge m R i j := by
  rw [hash_eq m R i j h]; rfl

theorem nonzero_iff {s : Bytes} (h : s.length = 32) : Scalar.nonzero s = true ↔ beNat s ≠ 0 := by
  unfold Scalar.nonzero
  rw [bne_iff_ne]
  refine not_congr ⟨fun e => by rw [e]; decide, fun e => ?_⟩
  exact Der.beNat_inj (by rw [h]; rfl) (by rw [e]; decide)

theorem nonzero_of_usable {s : Bytes} (h : Usable C (beNat s)) : Scalar.nonzero s = true := by
  unfold Scalar.nonzero
  rw [bne_iff_ne]
  rintro rfl
  exact absurd h.1 (by decide)

theorem hash_nonzero (m R : Bytes) (i j : Nat) (h : m.length + R.length ≤ 1000) :
    Scalar.nonzero (borromeanHash b m R i j) = true ↔ challenge m R i j ≠ 0 := by
  rw [nonzero_iff (by rw [hash_eq m R i j h]; exact sha_length _), hash_challenge m R i j h]

/-! ## One step -/

theorem mul_compressed {p : P} (hp : p ≠ 0) (s : Bytes) (h : Usable C (beNat s)) :
    Point.mul C (C.compressed p) s = C.compressed (beNat s • p) := by
  unfold Point.mul
  rw [compressed_valid, nonzero_of_usable h]
  simp only [Bool.not_true, Bool.or_self, Bool.false_eq_true, if_false]
  unfold mulPoint
  rw [C.parse_compressed p hp]
  dsimp only
  rw [if_pos ((verify_iff C s).2 h)]
  rfl

theorem generator_ne (C : Curve P) : C.generator ≠ 0 := by
  have := valid_smul C (k := 1) (by decide) C.prime.one_lt
  rwa [one_smul] at this

theorem smul_ne {k : Nat} (hk : Usable C k) {p : P} (hp : p ≠ 0) : k • p ≠ 0 := fun h =>
  (smul_zero_of hk.2 h).elim (fun e => absurd hk.1 (by omega)) hp

theorem calculateR_of {s e key : Bytes} {Q : P} (hs : Usable C (beNat s)) (he : Usable C (beNat e)) (hk : C.parse key = some Q)
    (hl : key.length = 33) (h0 : beNat s • C.generator + beNat e • Q ≠ 0) :
    calculateR C s e key = C.compressed (beNat s • C.generator + beNat e • Q) := by
  have hQ := C.parse_ne _ _ hk
  rw [C.parse_33 _ _ hk hl]
  unfold calculateR
  rw [mul_compressed (generator_ne C) s hs, mul_compressed hQ e he]
  unfold Point.add
  rw [compressed_valid, compressed_valid]
  simp only [Bool.not_true, Bool.or_self, Bool.false_eq_true, if_false]
  unfold addPoints
  rw [C.parse_compressed _ (smul_ne hs (generator_ne C)), C.parse_compressed _ (smul_ne he hQ)]
  dsimp only
  rw [if_pos h0]
  rfl

theorem none_invalid : Point.valid Point.none = false := by decide

theorem mul_valid {a s : Bytes} (h : Point.valid (Point.mul C a s) = true) : Usable C (beNat s) ∧ ∃ Q, C.parse a = some Q := by
  unfold Point.mul at h
  split at h
  · rw [none_invalid] at h; cases h
  · unfold mulPoint at h
    cases hp : C.parse a with
    | none => rw [hp] at h; exact absurd h (by rw [Option.getD_none, none_invalid]; decide)
    | some Q =>
      rw [hp] at h
      dsimp only at h
      split at h
      · rename_i hv
        exact ⟨(verify_iff C s).1 hv, Q, rfl⟩
      · exact absurd h (by rw [Option.getD_none, none_invalid]; decide)

theorem add_valid {a c : Bytes} (h : Point.valid (Point.add C a c) = true) :
    Point.valid a = true ∧ Point.valid c = true ∧ ∃ p q, C.parse a = some p ∧ C.parse c = some q ∧ p + q ≠ 0 := by
  unfold Point.add at h
  cases ha : Point.valid a
  · rw [ha] at h; exact absurd h (by simp [none_invalid])
  cases hc : Point.valid c
  · rw [hc] at h; exact absurd h (by simp [none_invalid])
  rw [ha, hc] at h
  simp only [Bool.not_true, Bool.or_self, Bool.false_eq_true, if_false] at h
  unfold addPoints at h
  refine ⟨rfl, rfl, ?_⟩
  cases hp : C.parse a with
  | none => rw [hp] at h; exact absurd h (by simp [none_invalid])
  | some p =>
    cases hq : C.parse c with
    | none => rw [hp, hq] at h; exact absurd h (by simp [none_invalid])
    | some q =>
      rw [hp, hq] at h
      dsimp only at h
      split at h
      · rename_i h0
        exact ⟨p, q, rfl, rfl, h0⟩
      · exact absurd h (by simp [none_invalid])

theorem calculateR_valid {s e key : Bytes} (hl : key.length = 33) (h : Point.valid (calculateR C s e key) = true) :
    Usable C (beNat s) ∧ Usable C (beNat e) ∧ ∃ Q, C.parse key = some Q ∧ beNat s • C.generator + beNat e • Q ≠ 0 := by
  obtain ⟨h1, h2, p, q, hp, hq, h0⟩ := add_valid h
  obtain ⟨hs, -⟩ := mul_valid h1
  obtain ⟨he, Q, hQ⟩ := mul_valid h2
  refine ⟨hs, he, Q, hQ, ?_⟩
  have hQ0 := C.parse_ne _ _ hQ
  rw [mul_compressed (generator_ne C) s hs, C.parse_compressed _ (smul_ne hs (generator_ne C))] at hp
  rw [C.parse_33 _ _ hQ hl, mul_compressed hQ0 e he, C.parse_compressed _ (smul_ne he hQ0)] at hq
  injection hp with hp
  injection hq with hq
  rwa [hp, hq]

/-! ## Verification -/

theorem walk_usable {m : Bytes} {i j e : Nat} {ring ss : List Bytes} {R : P} (hw : Walk C m i j e ring ss R) :
    ring ≠ [] ∧ Usable C e := by
  cases hw with
  | last h => exact ⟨by simp, h⟩
  | step h => exact ⟨by simp, h⟩

theorem verifyLoop_iff (m : Bytes) (hm : m.length = 32) (i : Nat) : ∀ (ring ss : List Bytes) (j : Nat) (e R : Bytes),
    ring ≠ [] → ss.length = ring.length → (∀ k ∈ ring, k.length = 33) →
    (∀ last, Walk C m i j (beNat e) ring ss last → verifyLoop C b i m j ring ss e R = C.compressed last) ∧
    (Point.valid (verifyLoop C b i m j ring ss e R) = true → ∃ last, Walk C m i j (beNat e) ring ss last)
  | [], _, _, _, _ => fun h => absurd rfl h
  | _ :: _, [], _, _, _ => fun _ h => by simp at h
  | key :: keys, s :: ss, j, e, R => by
    intro _ hl hk
    have hk1 : key.length = 33 := hk key (by simp)
    have hl' : ss.length = keys.length := by simpa using hl
    have hk' : ∀ k ∈ keys, k.length = 33 := fun k h => hk k (by simp [h])
    have hlen : ∀ p : P, m.length + (C.compressed p).length ≤ 1000 := fun p => by rw [compressed_length, hm]; decide
    constructor
    · intro last hw
      unfold verifyLoop
      cases hw with
      | last he hs hQ h0 hc =>
        rw [nonzero_of_usable hs, nonzero_of_usable he, calculateR_of hs he hQ hk1 h0]
        simp only [Bool.not_true, Bool.or_self, Bool.false_eq_true, if_false, compressed_valid]
        rw [(hash_nonzero _ _ _ _ (hlen _)).2 hc]
        simp only [Bool.not_true, Bool.false_eq_true, if_false]
        unfold verifyLoop
        rfl
      | step he hs hQ h0 hw =>
        rw [nonzero_of_usable hs, nonzero_of_usable he, calculateR_of hs he hQ hk1 h0]
        simp only [Bool.not_true, Bool.or_self, Bool.false_eq_true, if_false, compressed_valid]
        have hc : keys ≠ [] ∧ Usable C (challenge m (C.compressed (beNat s • C.generator + beNat e • ‹P›)) i (j + 1)) := by
          exact walk_usable hw
        rw [(hash_nonzero _ _ _ _ (hlen _)).2 (by have := hc.2.1; omega)]
        simp only [Bool.not_true, Bool.false_eq_true, if_false]
        exact (verifyLoop_iff m hm i keys ss (j + 1) _ _ hc.1 hl' hk').1 last (by rw [hash_challenge _ _ _ _ (hlen _)]; exact hw)
    · intro hv
      unfold verifyLoop at hv
      split at hv
      · rw [none_invalid] at hv; cases hv
      dsimp only at hv
      split at hv
      · rw [none_invalid] at hv; cases hv
      rename_i hR
      obtain ⟨hs, he, Q, hQ, h0⟩ := calculateR_valid hk1 (by simpa using hR)
      rw [calculateR_of hs he hQ hk1 h0] at hv
      split at hv
      · rw [none_invalid] at hv; cases hv
      rename_i hc
      have hc := (hash_nonzero _ _ _ _ (hlen _)).1 (by simpa using hc)
      by_cases hn : keys = []
      · subst hn
        have : ss = [] := by simpa using hl'
        subst this
        exact ⟨_, .last he hs hQ h0 hc⟩
      · obtain ⟨last, hw⟩ := (verifyLoop_iff m hm i keys ss (j + 1) _ _ hn hl' hk').2 hv
        rw [hash_challenge _ _ _ _ (hlen _)] at hw
        exact ⟨last, .step he hs hQ h0 hw⟩

theorem shape_tail {ring ss : List Bytes} {rings proofs : List (List Bytes)} (h : Shape (ring :: rings) (ss :: proofs)) : Shape rings proofs where
  keys := fun r hr => h.keys r (by simp [hr])
  count := by simpa using h.count
  each := fun i r s h1 h2 => h.each (i + 1) r s (by simpa using h1) (by simpa using h2)
  bytes := fun r hr => h.bytes r (by simp [hr])

theorem verifyParts_iff (m e0 : Bytes) (hm : m.length = 32) (he : e0.length = 32) : ∀ (rings proofs : List (List Bytes)) (n : Nat),
    Shape rings proofs → ∀ parts, verifyParts C b e0 m n rings proofs = some parts ↔ ∃ ends : List P, ends.length = rings.length ∧
      parts = ends.map C.compressed ∧ ∀ i ring ss R, rings[i]? = some ring → proofs[i]? = some ss → ends[i]? = some R →
        Walk C m (n + i) 0 (challenge m e0 (n + i) 0) ring ss R
  | [], proofs, n, _, parts => by
    unfold verifyParts
    constructor
    · intro h; injection h with h; subst h
      exact ⟨[], rfl, rfl, fun i ring ss R h => by simp at h⟩
    · rintro ⟨ends, hl, rfl, -⟩
      have : ends = [] := by simpa using hl
      subst this; rfl
  | ring :: rings, [], n, h, parts => by have := h.count; simp at this
  | ring :: rings, ss :: proofs, n, h, parts => by
    have ih := verifyParts_iff m e0 hm he rings proofs (n + 1) (shape_tail h)
    have hlen : m.length + e0.length ≤ 1000 := by rw [hm, he]; decide
    have hk : ∀ k ∈ ring, k.length = 33 := h.keys ring (by simp)
    have hs : ss.length = ring.length := h.each 0 ring ss rfl rfl
    have loop := fun hn => verifyLoop_iff (C := C) (b := b) m hm n ring ss 0 (borromeanHash b m e0 n 0) Point.none hn hs hk
    rw [hash_challenge _ _ _ _ hlen] at loop
    unfold verifyParts
    dsimp only
    constructor
    · intro hv
      split at hv
      · cases hv
      split at hv
      · cases hv
      rename_i hR
      have hR : Point.valid (verifyLoop C b n m 0 ring ss (borromeanHash b m e0 n 0) Point.none) = true := by simpa using hR
      have hn : ring ≠ [] := by
        rintro rfl
        unfold verifyLoop at hR
        rw [none_invalid] at hR; cases hR
      obtain ⟨last, hw⟩ := (loop hn).2 hR
      rw [(loop hn).1 last hw] at hv
      cases hp : verifyParts C b e0 m (n + 1) rings proofs with
      | none => rw [hp] at hv; cases hv
      | some ps =>
        rw [hp] at hv
        injection hv with hv
        obtain ⟨ends, hl, rfl, hall⟩ := (ih ps).1 hp
        refine ⟨last :: ends, by simp [hl], hv.symm, ?_⟩
        intro i r s R h1 h2 h3
        cases i with
        | zero =>
          simp only [List.getElem?_cons_zero, Option.some.injEq] at h1 h2 h3
          subst h1; subst h2; subst h3
          exact hw
        | succ i =>
          have := hall i r s R (by simpa using h1) (by simpa using h2) (by simpa using h3)
          rwa [show n + 1 + i = n + (i + 1) by omega] at this
    · rintro ⟨ends, hl, rfl, hall⟩
      cases ends with
      | nil => simp at hl
      | cons last ends =>
        have hw := hall 0 ring ss last rfl rfl rfl
        rw [Nat.add_zero] at hw
        have hu := walk_usable hw
        rw [(hash_nonzero _ _ _ _ hlen).2 (by have := hu.2.1; omega), (loop hu.1).1 last hw]
        simp only [Bool.not_true, Bool.false_eq_true, if_false, compressed_valid]
        rw [(ih _).2 ⟨ends, by simpa using hl, rfl, fun i r s R h1 h2 h3 => by
          have := hall (i + 1) r s R (by simpa using h1) (by simpa using h2) (by simpa using h3)
          rwa [show n + (i + 1) = n + 1 + i by omega] at this⟩]
        rfl

theorem ends_length (ends : List P) : (ends.map C.compressed).flatten.length = 33 * ends.length := by
  induction ends with
  | nil => rfl
  | cons p ps ih => rw [List.map_cons, List.flatten_cons, List.length_append, ih, compressed_length, List.length_cons]; omega

/-- **C74** A signature is accepted exactly if it closes every ring. -/
theorem C74_verify (rings : List (List Bytes)) (m : Bytes) (signature : Signature) (hm : m.length = 32)
    (hc : signature.challenge.length = 32) (h : Shape rings signature.proofs) (hr : rings.length < 2 ^ 32 - 1) :
    verify C b rings m signature = true ↔ Accepts C rings m signature.challenge signature.proofs := by
  have parts := verifyParts_iff (C := C) (b := b) m signature.challenge hm hc rings signature.proofs 0 h
  have key : ∀ ends : List P, ends.length = rings.length →
      sink b (ends.map C.compressed ++ [m]) = Spec.Hash.sha256.digest (ends.flatMap C.compressed ++ m) := by
    intro ends hl
    rw [sink_eq _ (by rw [List.flatten_append, List.length_append, ends_length]; simp; omega)]
    rw [List.flatten_append, List.flatMap_def]
    simp
  unfold verify
  rw [if_neg (by simp [h.count]; omega)]
  constructor
  · intro hv
    cases hp : verifyParts C b signature.challenge m 0 rings signature.proofs with
    | none => rw [hp] at hv; cases hv
    | some ps =>
      rw [hp] at hv
      obtain ⟨ends, hl, rfl, hall⟩ := (parts ps).1 hp
      refine ⟨ends, hl, h.count, fun i r s R h1 h2 h3 => ?_, ?_⟩
      · have := hall i r s R h1 h2 h3
        rwa [Nat.zero_add] at this
      · rw [← key ends hl]; exact (beq_iff_eq.1 hv).symm
  · rintro ⟨ends, hl, -, hall, he⟩
    rw [(parts _).2 ⟨ends, hl, rfl, fun i r s R h1 h2 h3 => by rw [Nat.zero_add]; exact hall i r s R h1 h2 h3⟩]
    dsimp only
    rw [key ends hl, ← he]
    exact beq_self_eq_true _

/-! ## Keys -/

theorem find_insert (keys : Keys) (k s q : Bytes) : (keys.insert k s).find q =
    if k = q ∧ keys.find k = none then some s else keys.find q := by
  unfold Keys.insert
  cases h : keys.find k with
  | some x => simp
  | none =>
    simp only [Option.isSome_none, Bool.false_eq_true, if_false, and_true]
    unfold Keys.find at h ⊢
    rw [List.find?_append]
    by_cases e : k = q
    · subst e
      rw [Option.map_eq_none_iff] at h
      simp [h]
    · rw [if_neg e]
      simp [e]

theorem generate_some : ∀ (secrets : List Bytes) (out keys : Keys), generateKeysMap C out secrets = some keys →
    (∀ x ∈ secrets, Usable C (beNat x)) ∧
    ∀ k x, keys.find k = some x → out.find k = some x ∨ (x ∈ secrets ∧ k = C.compressed (beNat x • C.generator))
  | [], out, keys, h => by
    unfold generateKeysMap at h
    injection h with h
    subst h
    exact ⟨fun x hx => by simp at hx, fun k x h => .inl h⟩
  | s :: ss, out, keys, h => by
    unfold generateKeysMap at h
    by_cases hv : verifySecret C s = true
    · unfold secretToPublic at h
      rw [if_pos hv] at h
      obtain ⟨h1, h2⟩ := generate_some ss _ _ h
      refine ⟨fun x hx => ?_, fun k x hk => ?_⟩
      · rcases List.mem_cons.1 hx with rfl | hx
        · exact (verify_iff C _).1 hv
        · exact h1 x hx
      · rcases h2 k x hk with h3 | h3
        · rw [find_insert] at h3
          split at h3
          · rename_i hc
            injection h3 with h3
            subst h3
            exact .inr ⟨by simp, hc.1.symm⟩
          · exact .inl h3
        · exact .inr ⟨by simp [h3.1], h3.2⟩
    · unfold secretToPublic at h
      rw [if_neg hv] at h
      cases h

theorem generate_of : ∀ (secrets : List Bytes) (out : Keys), (∀ x ∈ secrets, Usable C (beNat x)) →
    ∃ keys, generateKeysMap C out secrets = some keys ∧ (∀ k, (out.find k).isSome → (keys.find k).isSome) ∧
      ∀ x ∈ secrets, (keys.find (C.compressed (beNat x • C.generator))).isSome
  | [], out, _ => ⟨out, rfl, fun _ h => h, fun x hx => by simp at hx⟩
  | s :: ss, out, h => by
    have hs := (verify_iff C s).2 (h s (by simp))
    obtain ⟨keys, h1, h2, h3⟩ := generate_of ss (out.insert (C.compressed (beNat s • C.generator)) s) (fun x hx => h x (by simp [hx]))
    have hins : ∀ k, (out.find k).isSome ∨ k = C.compressed (beNat s • C.generator) → (keys.find k).isSome := by
      intro k hk
      refine h2 k ?_
      rw [find_insert]
      split
      · rfl
      · rename_i hn
        rcases hk with hk | rfl
        · exact hk
        · cases hf : out.find (C.compressed (beNat s • C.generator)) with
          | none => exact absurd ⟨rfl, hf⟩ hn
          | some y => rfl
    refine ⟨keys, ?_, fun k hk => hins k (.inl hk), fun x hx => ?_⟩
    · unfold generateKeysMap secretToPublic
      rw [if_pos hs]
      exact h1
    · rcases List.mem_cons.1 hx with rfl | hx
      · exact hins _ (.inr rfl)
      · exact h3 x hx

/-- What is known of an index of a ring: there is a known key. -/
def Known (keys : Keys) (ring : List Bytes) (n : Nat) : Prop := ∃ key x, ring[n]? = some key ∧ keys.find key = some x

theorem indexes_some {keys : Keys} : ∀ {rings : List (List Bytes)} {known : List Nat}, generateKnownIndexes rings keys = some known →
    List.Forall₂ (Known keys) rings known
  | [], known, h => by
    unfold generateKnownIndexes at h
    simp at h
    subst h
    exact .nil
  | ring :: rings, known, h => by
    unfold generateKnownIndexes at h
    rw [List.mapM_cons] at h
    cases hg : (knownKeysInRing keys ring).getLast? with
    | none => rw [hg] at h; cases h
    | some k =>
      rw [hg] at h
      have hk := List.mem_of_getLast? hg
      unfold knownKeysInRing at hk
      obtain ⟨hk1, hk2⟩ := List.mem_filter.1 hk
      dsimp only at h
      rw [if_pos hk1] at h
      cases hr : generateKnownIndexes rings keys with
      | none =>
        unfold generateKnownIndexes at hr
        rw [hr] at h; cases h
      | some ks =>
        have ih := indexes_some hr
        unfold generateKnownIndexes at hr
        rw [hr] at h
        injection h with h
        subst h
        obtain ⟨x, hx⟩ := Option.isSome_iff_exists.1 hk2
        refine .cons ⟨k, x, ?_, hx⟩ ih
        have := List.idxOf_lt_length_of_mem hk1
        rw [List.getElem?_eq_getElem this, List.getElem_idxOf this]

theorem indexes_of {keys : Keys} : ∀ {rings : List (List Bytes)}, (∀ ring ∈ rings, ∃ k ∈ ring, (keys.find k).isSome) →
    ∃ known, generateKnownIndexes rings keys = some known
  | [], _ => ⟨[], rfl⟩
  | ring :: rings, h => by
    obtain ⟨ks, hks⟩ := indexes_of (keys := keys) (rings := rings) (fun r hr => h r (by simp [hr]))
    obtain ⟨k, hk, hf⟩ := h ring (by simp)
    unfold generateKnownIndexes at hks ⊢
    rw [List.mapM_cons, hks]
    have hm : k ∈ knownKeysInRing keys ring := List.mem_filter.2 ⟨hk, hf⟩
    cases hg : (knownKeysInRing keys ring).getLast? with
    | none =>
      rw [List.getLast?_eq_none_iff] at hg
      rw [hg] at hm; simp at hm
    | some q =>
      have hq := (List.mem_filter.1 (List.mem_of_getLast? hg)).1
      dsimp only
      rw [if_pos hq]
      exact ⟨_, rfl⟩

/-! ## Signing -/

/-- Before the known key, signing and verification go the same way. -/
theorem known_verify (m : Bytes) (hm : m.length = 32) (i : Nat) (rest rest' : List Bytes) (hr : rest ≠ []) :
    ∀ (A a tail : List Bytes) (j : Nat) (e e' R : Bytes), knownLoop C b i m j A (a ++ tail) e = some e' → a.length = A.length →
    (∀ k ∈ A, k.length = 33) → Scalar.nonzero e = true → Scalar.nonzero e' = true ∧
    (∃ R', verifyLoop C b i m j (A ++ rest) (a ++ rest') e R = verifyLoop C b i m (j + A.length) rest rest' e' R') ∧
    ∀ j2 e2, Met C m i (j + A.length) (beNat e') rest rest' j2 e2 → Met C m i j (beNat e) (A ++ rest) (a ++ rest') j2 e2
  | [], a, tail, j, e, e', R => by
    intro h ha _ he
    have : a = [] := by simpa using ha
    subst this
    unfold knownLoop at h
    injection h with h
    subst h
    exact ⟨he, ⟨R, rfl⟩, fun _ _ h => h⟩
  | key :: A, [], tail, j, e, e', R => fun _ ha => by simp at ha
  | key :: A, s :: a, tail, j, e, e', R => by
    intro h ha hk he
    have hk1 : key.length = 33 := hk key (by simp)
    have hlen : ∀ p : P, m.length + (C.compressed p).length ≤ 1000 := fun p => by rw [compressed_length, hm]; decide
    rw [List.cons_append] at h
    unfold knownLoop at h
    dsimp only at h
    split at h
    · cases h
    split at h
    · cases h
    rename_i hs hR
    split at h
    · cases h
    rename_i hn
    have hs : Scalar.nonzero s = true := by simpa using hs
    have hR : Point.valid (calculateR C s e key) = true := by simpa using hR
    have hn : Scalar.nonzero (borromeanHash b m (calculateR C s e key) i (j + 1)) = true := by simpa using hn
    obtain ⟨h1, h2, h3⟩ := known_verify m hm i rest rest' hr A a tail (j + 1) _ e' (calculateR C s e key) h (by simpa using ha)
      (fun k hx => hk k (by simp [hx])) hn
    have hj : j + (key :: A).length = j + 1 + A.length := by simp; omega
    rw [hj]
    refine ⟨h1, ?_, fun j2 e2 h4 => ?_⟩
    · obtain ⟨R', hR'⟩ := h2
      refine ⟨R', ?_⟩
      rw [← hR']
      rw [List.cons_append, List.cons_append]
      conv_lhs => unfold verifyLoop
      simp only [hs, he, hR, hn, Bool.not_true, Bool.or_self, Bool.false_eq_true, if_false]
    · obtain ⟨hsu, heu, Q, hQ, h0⟩ := calculateR_valid hk1 hR
      have := h3 j2 e2 h4
      rw [calculateR_of hsu heu hQ hk1 h0, hash_challenge _ _ _ _ (hlen _)] at this
      exact .next hQ this

/-- And so they do behind it. -/
theorem signing_verify (m : Bytes) (hm : m.length = 32) (i : Nat) : ∀ (B c : List Bytes) (j : Nat) (p : P), c.length = B.length →
    (∀ k ∈ B, k.length = 33) → Point.valid (signingLoop C b i m j B c (C.compressed p)) = true →
    ∃ last, signingLoop C b i m j B c (C.compressed p) = C.compressed last ∧
      Met C m i j (challenge m (C.compressed p) i j) B c (j + B.length) (challenge m (C.compressed last) i (j + B.length)) ∧
      (challenge m (C.compressed last) i (j + B.length) ≠ 0 →
        verifyLoop C b i m j B c (borromeanHash b m (C.compressed p) i j) (C.compressed p) = C.compressed last)
  | [], c, j, p => by
    intro _ _ _
    refine ⟨p, ?_, .here, fun _ => ?_⟩
    · unfold signingLoop; rfl
    · unfold verifyLoop; rfl
  | key :: B, [], j, p => fun h => by simp at h
  | key :: B, s :: c, j, p => by
    intro hl hk hv
    have hk1 : key.length = 33 := hk key (by simp)
    have hlen : ∀ p : P, m.length + (C.compressed p).length ≤ 1000 := fun p => by rw [compressed_length, hm]; decide
    unfold signingLoop at hv ⊢
    dsimp only at hv ⊢
    split at hv
    · rw [none_invalid] at hv; cases hv
    rename_i hs
    split at hv
    · rw [none_invalid] at hv; cases hv
    rename_i he
    split at hv
    · rw [none_invalid] at hv; cases hv
    rename_i hR
    rw [if_neg hs, if_neg he, if_neg hR]
    have hs : Scalar.nonzero s = true := by simpa using hs
    have he : Scalar.nonzero (borromeanHash b m (C.compressed p) i j) = true := by simpa using he
    have hR : Point.valid (calculateR C s (borromeanHash b m (C.compressed p) i j) key) = true := by simpa using hR
    obtain ⟨hsu, heu, Q, hQ, h0⟩ := calculateR_valid hk1 hR
    have hq := calculateR_of hsu heu hQ hk1 h0
    rw [hash_challenge _ _ _ _ (hlen _)] at hq
    rw [hq] at hv ⊢
    obtain ⟨last, h1, h2, h3⟩ := signing_verify m hm i B c (j + 1) _ (by simpa using hl) (fun k hx => hk k (by simp [hx])) hv
    have hj : j + (key :: B).length = j + 1 + B.length := by simp; omega
    refine ⟨last, h1, ?_, fun hc => ?_⟩
    · rw [hj]; exact .next hQ h2
    · rw [hj] at hc
      rw [← h3 hc]
      conv_lhs => unfold verifyLoop
      have hne : Scalar.nonzero (borromeanHash b m (C.compressed (beNat s • C.generator + challenge m (C.compressed p) i j • Q)) i (j + 1)) = true := by
        rw [hash_nonzero _ _ _ _ (hlen _)]
        cases B with
        | nil =>
          have : c = [] := by simpa using hl
          subst this
          unfold signingLoop at h1
          rw [h1]; simpa using hc
        | cons k2 B =>
          cases c with
          | nil => simp at hl
          | cons s2 c =>
            unfold signingLoop at hv
            dsimp only at hv
            split at hv
            · rw [none_invalid] at hv; cases hv
            split at hv
            · rw [none_invalid] at hv; cases hv
            rename_i hx
            exact (hash_nonzero _ _ _ _ (hlen _)).1 (by simpa using hx)
      simp only [hs, he, hq, hne, compressed_valid, Bool.not_true, Bool.or_self, Bool.false_eq_true, if_false]

theorem mul_scalar {e x : Bytes} (he : Usable C (beNat e)) (hx : Usable C (beNat x)) :
    IsScalar C (Scalar.mul C e x) (beNat e * beNat x % C.order) := by
  unfold Scalar.mul mulSecret
  rw [(verify_iff C e).2 he, (verify_iff C x).2 hx]
  exact ⟨Nat.mod_lt _ C.prime.pos, rfl⟩

theorem sub_scalar {k t : Bytes} {n : Nat} (hk : Usable C (beNat k)) (ht : IsScalar C t n) :
    ∃ r, IsScalar C (Scalar.sub C k t) r ∧ (r + n) % C.order = beNat k := by
  refine ⟨(beNat k + (C.order - n) % C.order) % C.order, ?_, ?_⟩
  · have hn := neg_isScalar ht
    unfold Scalar.sub Scalar.add addSecret
    rw [scalar_beNat hn]
    by_cases hz : (beNat k + (C.order - n) % C.order) % C.order = 0
    · rw [if_neg (fun h => h.2.2 hz), hz]; exact scalar_zero
    · rw [if_pos ⟨(verify_iff C k).2 hk, hn.1, hz⟩]
      exact ⟨Nat.mod_lt _ C.prime.pos, rfl⟩
  · rw [Nat.mod_add_mod, Nat.add_assoc, Nat.add_comm _ n, ← Nat.add_assoc, Nat.add_mod_mod, Nat.add_assoc]
    have := ht.1
    rw [show n + (C.order - n) = C.order by omega, Nat.add_mod_right, Nat.mod_eq_of_lt hk.2]

/-- The proof at the known key. -/
theorem close {k e x : Bytes} (hk : Usable C (beNat k)) (he : Usable C (beNat e)) (hx : Usable C (beNat x)) :
    ∃ r, IsScalar C (Scalar.sub C k (Scalar.mul C e x)) r ∧ (r + beNat e * beNat x) % C.order = beNat k ∧
      r • C.generator + beNat e • (beNat x • C.generator) = beNat k • C.generator := by
  obtain ⟨r, h1, h2⟩ := sub_scalar hk (mul_scalar he hx)
  rw [Nat.add_mod_mod] at h2
  refine ⟨r, h1, h2, ?_⟩
  rw [smul_smul, ← add_smul, ← mod_smul, h2]

theorem split_at {α : Type} {l : List α} {n : Nat} {x : α} (h : l[n]? = some x) : l = l.take n ++ x :: l.drop (n + 1) := by
  obtain ⟨hn, rfl⟩ := List.getElem?_eq_some_iff.1 h
  rw [← List.drop_eq_getElem_cons hn, List.take_append_drop]

theorem signingLoop_start {ring ss : List Bytes} {i known : Nat} {m salt : Bytes}
    (h : Point.valid (lastRSigning C b ring i m ss known salt) = true) : Usable C (beNat salt) ∧
    lastRSigning C b ring i m ss known salt =
      signingLoop C b i m (known + 1) (ring.drop (known + 1)) (ss.drop (known + 1)) (C.compressed (beNat salt • C.generator)) := by
  unfold lastRSigning at h ⊢
  dsimp only at h ⊢
  split at h
  · rw [none_invalid] at h; cases h
  rename_i hv
  have hu := (mul_valid (C := C) (a := C.compressed C.generator) (s := salt) (by simpa using hv)).1
  rw [if_neg hv, mul_compressed (generator_ne C) salt hu]
  exact ⟨hu, rfl⟩

/-- One ring: what signing computes from the salt is what verification comes to. -/
theorem ring_close (m : Bytes) (hm : m.length = 32) (i : Nat) {ring ss : List Bytes} {known : Nat} {key x salt e0 e : Bytes}
    (hl : ss.length = ring.length) (hk : ∀ k ∈ ring, k.length = 33) (hkey : ring[known]? = some key)
    (hx : Usable C (beNat x)) (hpub : key = C.compressed (beNat x • C.generator))
    (hR : Point.valid (lastRSigning C b ring i m ss known salt) = true) (he0 : Scalar.nonzero e0 = true)
    (hloop : knownLoop C b i m 0 (ring.take known) ss e0 = some e)
    (hs : Scalar.nonzero (Scalar.sub C salt (Scalar.mul C e x)) = true)
    (hmet : ∀ j e', Met C m i 0 (beNat e0) ring (ss.set known (Scalar.sub C salt (Scalar.mul C e x))) j e' →
      e' ≠ 0 ∧ (j < ring.length → e' < C.order)) :
    verifyLoop C b i m 0 ring (ss.set known (Scalar.sub C salt (Scalar.mul C e x))) e0 Point.none = lastRSigning C b ring i m ss known salt := by
  obtain ⟨hu, hstart⟩ := signingLoop_start hR
  have hn : known < ring.length := (List.getElem?_eq_some_iff.1 hkey).1
  have hn' : known < ss.length := by omega
  have hlen : ∀ p : P, m.length + (C.compressed p).length ≤ 1000 := fun p => by rw [compressed_length, hm]; decide
  have er := split_at hkey
  have es := split_at (List.getElem?_eq_getElem hn')
  have eset : ∀ y, ss.set known y = ss.take known ++ y :: ss.drop (known + 1) := fun y => by
    rw [List.set_eq_take_append_cons_drop, if_pos hn']
  have ht : (ring.take known).length = known := List.length_take_of_le (by omega)
  have ht' : (ss.take known).length = known := List.length_take_of_le (by omega)
  rw [hstart] at hR ⊢
  generalize hsv : Scalar.sub C salt (Scalar.mul C e x) = s at hs hmet ⊢
  rw [es] at hloop
  obtain ⟨hne, ⟨R', hv⟩, hmet1⟩ := known_verify m hm i (key :: ring.drop (known + 1)) (s :: ss.drop (known + 1)) (by simp) _ _ _ _ _ _
    Point.none hloop (by rw [ht, ht']) (fun k hk' => hk k (List.mem_of_mem_take hk')) he0
  rw [ht, Nat.zero_add] at hv hmet1
  rw [← er] at hmet1 hv
  rw [eset s] at hmet
  rw [eset s]
  have he : Usable C (beNat e) := by
    have := hmet _ _ (hmet1 _ _ .here)
    exact ⟨by have := this.1; omega, this.2 hn⟩
  obtain ⟨r, hr, hr2, hsum⟩ := close hu he hx
  rw [hsv] at hr
  have hr0 : r ≠ 0 := by
    rintro rfl
    have : s = Scalar.zero := by rw [hr.2]; decide
    rw [this] at hs
    exact absurd hs (by decide)
  have hsu : Usable C (beNat s) := by rw [scalar_beNat hr]; exact ⟨by omega, hr.1⟩
  have hkl := hk key (List.mem_of_getElem? hkey)
  have hQ : C.parse key = some (beNat x • C.generator) := by rw [hpub]; exact C.parse_compressed _ (smul_ne hx (generator_ne C))
  rw [← scalar_beNat hr] at hsum
  have h0 : beNat s • C.generator + beNat e • beNat x • C.generator ≠ 0 := by rw [hsum]; exact smul_ne hu (generator_ne C)
  have hcalc := calculateR_of hsu he hQ hkl h0
  rw [hsum] at hcalc
  obtain ⟨last, h1, h2, h3⟩ := signing_verify m hm i (ring.drop (known + 1)) (ss.drop (known + 1)) (known + 1) (beNat salt • C.generator)
    (by simp [hl]) (fun k hk' => hk k (List.mem_of_mem_drop hk')) hR
  have next : ∀ j2 e2, Met C m i (known + 1) (challenge m (C.compressed (beNat salt • C.generator)) i (known + 1)) (ring.drop (known + 1))
      (ss.drop (known + 1)) j2 e2 → e2 ≠ 0 ∧ (j2 < ring.length → e2 < C.order) := by
    intro j2 e2 h
    rw [← hsum] at h
    exact hmet _ _ (hmet1 _ _ (.next hQ h))
  rw [hv]
  conv_lhs => unfold verifyLoop
  simp only [hs, hne, hcalc, compressed_valid, Bool.not_true, Bool.or_self, Bool.false_eq_true, if_false]
  rw [(hash_nonzero _ _ _ _ (hlen _)).2 (next _ _ .here).1]
  simp only [Bool.not_true, Bool.false_eq_true, if_false]
  rw [h3 (next _ _ h2).1, h1]

theorem sign_verifyParts (m e0 : Bytes) (hm : m.length = 32) (he : e0.length = 32) {keys : Keys}
    (hkeys : ∀ k x, keys.find k = some x → Usable C (beNat x) ∧ k = C.compressed (beNat x • C.generator)) :
    ∀ (rings proofs ps : List (List Bytes)) (salts : List Bytes) (known : List Nat) (n : Nat) (parts : List Bytes),
    Shape rings proofs → List.Forall₂ (Known keys) rings known →
    e0Parts C b m n rings proofs salts known = some parts → joinRings C b e0 m keys n rings proofs salts known = some ps →
    (∀ i ring ss j e', rings[i]? = some ring → ps[i]? = some ss → Met C m (n + i) 0 (challenge m e0 (n + i) 0) ring ss j e' →
      e' ≠ 0 ∧ (j < ring.length → e' < C.order)) →
    ps.length = rings.length ∧ verifyParts C b e0 m n rings ps = some parts
  | [], proofs, ps, salts, known, n, parts => by
    intro _ _ h1 h2 _
    unfold e0Parts at h1
    unfold joinRings at h2
    injection h1 with h1
    injection h2 with h2
    subst h1; subst h2
    exact ⟨rfl, by unfold verifyParts; rfl⟩
  | ring :: rings, [], _, _, _, _, _ => fun h => by have := h.count; simp at this
  | ring :: rings, ss :: proofs, _, [], _, _, _ => fun _ _ h => by unfold e0Parts at h; cases h
  | ring :: rings, ss :: proofs, _, salt :: salts, [], _, _ => fun _ h => by cases h
  | ring :: rings, ss :: proofs, ps, salt :: salts, kn :: known, n, parts => by
    intro hsh hkn h1 h2 hmet
    obtain ⟨⟨key, x, hkey, hfind⟩, hkn⟩ := List.forall₂_cons.1 hkn
    have hlen : m.length + e0.length ≤ 1000 := by rw [hm, he]; decide
    unfold e0Parts at h1
    dsimp only at h1
    split at h1
    · cases h1
    rename_i hR
    have hR : Point.valid (lastRSigning C b ring n m ss kn salt) = true := by simpa using hR
    cases hp : e0Parts C b m (n + 1) rings proofs salts known with
    | none => rw [hp] at h1; cases h1
    | some parts' =>
      rw [hp] at h1
      injection h1 with h1
      subst h1
      unfold joinRings at h2
      dsimp only at h2
      split at h2
      · cases h2
      rename_i hz
      have hz : Scalar.nonzero (borromeanHash b m e0 n 0) = true := by simpa using hz
      cases hl : knownLoop C b n m 0 (ring.take kn) ss (borromeanHash b m e0 n 0) with
      | none => rw [hl] at h2; cases h2
      | some e =>
        rw [hl, hkey] at h2
        dsimp only at h2
        rw [hfind] at h2
        dsimp only at h2
        split at h2
        · cases h2
        rename_i hs
        have hs : Scalar.nonzero (Scalar.sub C salt (Scalar.mul C e x)) = true := by simpa using hs
        cases hj : joinRings C b e0 m keys (n + 1) rings proofs salts known with
        | none => rw [hj] at h2; cases h2
        | some rest =>
          rw [hj] at h2
          injection h2 with h2
          subst h2
          obtain ⟨hu, hpub⟩ := hkeys key x hfind
          have hthis := ring_close (C := C) (b := b) m hm n (hsh.each 0 ring ss rfl rfl) (hsh.keys ring (by simp)) hkey hu hpub hR hz hl hs
            (fun j e' hM => by
              rw [hash_challenge _ _ _ _ hlen] at hM
              exact hmet 0 ring _ j e' rfl rfl hM)
          obtain ⟨ih1, ih2⟩ := sign_verifyParts m e0 hm he hkeys rings proofs rest salts known (n + 1) parts' (shape_tail hsh) hkn hp hj
            (fun i r s j e' h3 h4 h5 => hmet (i + 1) r s j e' (by simpa using h3) (by simpa using h4)
              (by rwa [show n + (i + 1) = n + 1 + i by omega]))
          refine ⟨by simp [ih1], ?_⟩
          unfold verifyParts
          dsimp only
          rw [hz, hthis, hR, ih2]
          rfl

theorem parts_length (m : Bytes) (hm : m.length = 32) : ∀ (rings proofs : List (List Bytes)) (salts : List Bytes) (known : List Nat) (n : Nat)
    (parts : List Bytes), Shape rings proofs → e0Parts C b m n rings proofs salts known = some parts →
    parts.flatten.length = 33 * rings.length
  | [], _, _, _, _, parts => by
    intro _ h
    unfold e0Parts at h
    injection h with h
    subst h; rfl
  | ring :: rings, [], _, _, _, _ => fun h => by have := h.count; simp at this
  | ring :: rings, ss :: proofs, [], _, _, _ => fun _ h => by unfold e0Parts at h; cases h
  | ring :: rings, ss :: proofs, salt :: salts, [], _, _ => fun _ h => by unfold e0Parts at h; cases h
  | ring :: rings, ss :: proofs, salt :: salts, kn :: known, n, parts => by
    intro hsh h1
    unfold e0Parts at h1
    dsimp only at h1
    split at h1
    · cases h1
    rename_i hR
    have hR : Point.valid (lastRSigning C b ring n m ss kn salt) = true := by simpa using hR
    cases hp : e0Parts C b m (n + 1) rings proofs salts known with
    | none => rw [hp] at h1; cases h1
    | some parts' =>
      rw [hp] at h1
      injection h1 with h1
      subst h1
      obtain ⟨-, e⟩ := signingLoop_start hR
      rw [e] at hR
      have hl := hsh.each 0 ring ss rfl rfl
      obtain ⟨last, h2, -⟩ := signing_verify m hm n (ring.drop (kn + 1)) (ss.drop (kn + 1)) (kn + 1) (beNat salt • C.generator) (by simp [hl])
        (fun k hk => hsh.keys ring (by simp) k (List.mem_of_mem_drop hk)) hR
      rw [List.flatten_cons, List.length_append, parts_length m hm rings proofs salts known (n + 1) parts' (shape_tail hsh) hp, e, h2,
        compressed_length, List.length_cons]
      omega

theorem sign_verifies (proofs rings : List (List Bytes)) (secrets salts : List Bytes) (m : Bytes) (signature : Signature) (hm : m.length = 32)
    (h : Shape rings proofs) (hs : sign C b proofs secrets rings m salts = some signature)
    (hmet : ∀ i ring ss j e, rings[i]? = some ring → signature.proofs[i]? = some ss →
      Met C m i 0 (challenge m signature.challenge i 0) ring ss j e → e ≠ 0 ∧ (j < ring.length → e < C.order)) :
    verify C b rings m signature = true := by
  unfold sign at hs
  split at hs
  · cases hs
  rename_i hr
  cases hg : generateKeysMap C [] secrets with
  | none => rw [hg] at hs; cases hs
  | some keys =>
    rw [hg] at hs
    dsimp only at hs
    cases hi : generateKnownIndexes rings keys with
    | none => rw [hi] at hs; cases hs
    | some known =>
      rw [hi] at hs
      dsimp only at hs
      unfold calculateE0 at hs
      cases hp : e0Parts C b m 0 rings proofs salts known with
      | none => rw [hp] at hs; cases hs
      | some parts =>
        rw [hp] at hs
        dsimp only at hs
        cases hj : joinRings C b (sink b (parts ++ [m])) m keys 0 rings proofs salts known with
        | none => rw [hj] at hs; cases hs
        | some ps =>
          rw [hj] at hs
          injection hs with hs
          subst hs
          obtain ⟨hsec, hkeys⟩ := generate_some secrets [] keys hg
          have hkeys' : ∀ k x, keys.find k = some x → Usable C (beNat x) ∧ k = C.compressed (beNat x • C.generator) := by
            intro k x hk
            rcases hkeys k x hk with h | ⟨h1, h2⟩
            · cases h
            · exact ⟨hsec x h1, h2⟩
          have hlen : (sink b (parts ++ [m])).length = 32 := by
            have : sink b (parts ++ [m]) = Spec.Hash.sha256.digest (parts ++ [m]).flatten := sink_eq _ (by
              have := parts_length m hm rings proofs salts known 0 parts h hp
              rw [List.flatten_append, List.length_append, this]
              simp; omega)
            rw [this]; exact sha_length _
          obtain ⟨h1, h2⟩ := sign_verifyParts m _ hm hlen hkeys' rings proofs ps salts known 0 parts h (indexes_some hi) hp hj
            (fun i ring ss j e' h3 h4 h5 => hmet i ring ss j e' h3 h4 (by rwa [Nat.zero_add] at h5))
          unfold verify
          rw [if_neg (by simp [h1]; omega), h2]
          exact beq_self_eq_true _

theorem add_length (a c : Bytes) : (Scalar.add C a c).length = 32 := by
  unfold Scalar.add addSecret
  split
  · exact beBytes_length _ _
  · rfl

theorem join_count (e0 m : Bytes) (keys : Keys) : ∀ (rings proofs ps : List (List Bytes)) (salts : List Bytes) (known : List Nat) (n : Nat),
    joinRings C b e0 m keys n rings proofs salts known = some ps → ps.length = rings.length
  | [], _, ps, _, _, _ => by
    intro h
    unfold joinRings at h
    injection h with h
    subst h; rfl
  | ring :: rings, [], _, _, _, _ => fun h => by unfold joinRings at h; cases h
  | ring :: rings, ss :: proofs, _, [], _, _ => fun h => by unfold joinRings at h; cases h
  | ring :: rings, ss :: proofs, _, salt :: salts, [], _ => fun h => by unfold joinRings at h; cases h
  | ring :: rings, ss :: proofs, ps, salt :: salts, kn :: known, n => by
    intro h
    unfold joinRings at h
    dsimp only at h
    split at h
    · cases h
    split at h
    · cases h
    split at h
    · cases h
    split at h
    · cases h
    split at h
    · cases h
    split at h
    · cases h
    rename_i rest hj
    injection h with h
    subst h
    rw [List.length_cons, List.length_cons, join_count e0 m keys rings proofs rest salts known _ hj]

theorem join_set (e0 m : Bytes) (keys : Keys) : ∀ (rings proofs ps : List (List Bytes)) (salts : List Bytes) (known : List Nat) (n : Nat),
    joinRings C b e0 m keys n rings proofs salts known = some ps →
    ∀ (i : Nat) ss', ps[i]? = some ss' → ∃ (ss : List Bytes) (n : Nat) (s : Bytes), proofs[i]? = some ss ∧ ss' = ss.set n s ∧ s.length = 32
  | [], _, ps, _, _, _ => by
    intro h i ss' hi
    unfold joinRings at h
    injection h with h
    subst h
    simp at hi
  | ring :: rings, [], _, _, _, _ => fun h => by unfold joinRings at h; cases h
  | ring :: rings, ss :: proofs, _, [], _, _ => fun h => by unfold joinRings at h; cases h
  | ring :: rings, ss :: proofs, _, salt :: salts, [], _ => fun h => by unfold joinRings at h; cases h
  | ring :: rings, ss :: proofs, ps, salt :: salts, kn :: known, n => by
    intro h i ss' hi
    unfold joinRings at h
    dsimp only at h
    split at h
    · cases h
    split at h
    · cases h
    split at h
    · cases h
    split at h
    · cases h
    split at h
    · cases h
    split at h
    · cases h
    rename_i rest hj
    injection h with h
    subst h
    cases i with
    | zero =>
      simp only [List.getElem?_cons_zero, Option.some.injEq] at hi
      exact ⟨ss, _, _, rfl, hi.symm, add_length _ _⟩
    | succ i =>
      obtain ⟨t, n, s, h1, h2⟩ := join_set e0 m keys rings proofs rest salts known _ hj i ss' (by simpa using hi)
      exact ⟨t, n, s, by simpa using h1, h2⟩

/-- **C74** Signing succeeds only for one who has the secret of a key of every ring, and changes one proof of each ring. -/
theorem C74_needs (proofs rings : List (List Bytes)) (secrets salts : List Bytes) (m : Bytes) (signature : Signature)
    (hs : sign C b proofs secrets rings m salts = some signature) : CanSign C rings secrets ∧
    ∀ (i : Nat) ss', signature.proofs[i]? = some ss' → ∃ (ss : List Bytes) (n : Nat) (s : Bytes), proofs[i]? = some ss ∧ ss' = ss.set n s ∧ s.length = 32 := by
  unfold sign at hs
  split at hs
  · cases hs
  rename_i hr
  clear hr
  cases hg : generateKeysMap C [] secrets with
  | none => rw [hg] at hs; cases hs
  | some keys =>
    rw [hg] at hs
    dsimp only at hs
    cases hi : generateKnownIndexes rings keys with
    | none => rw [hi] at hs; cases hs
    | some known =>
      obtain ⟨hsec, hkeys⟩ := generate_some secrets [] keys hg
      have hf := indexes_some hi
      rw [hi] at hs
      dsimp only at hs
      refine ⟨⟨hsec, ?_⟩, ?_⟩
      rotate_left
      · clear hf
        cases hc : calculateE0 C b rings proofs m salts known with
        | none => rw [hc] at hs; cases hs
        | some e0 =>
          rw [hc] at hs
          dsimp only at hs
          cases hj : joinRings C b e0 m keys 0 rings proofs salts known with
          | none => rw [hj] at hs; cases hs
          | some ps =>
            rw [hj] at hs
            injection hs with hs
            subst hs
            exact join_set _ _ _ _ _ _ _ _ _ hj
      clear hs hi hg
      induction hf with
      | nil => intro r hr; simp at hr
      | cons hk _ ih =>
        intro r hr
        rcases List.mem_cons.1 hr with rfl | hr
        · obtain ⟨key, x, h1, h2⟩ := hk
          rcases hkeys key x h2 with h | ⟨h3, rfl⟩
          · cases h
          · exact ⟨x, h3, List.mem_of_getElem? h1⟩
        · exact ih r hr

/-! ## Any signer could have made a signature -/

theorem walk_known (m : Bytes) (hm : m.length = 32) (i : Nat) (key s : Bytes) (B c : List Bytes) (last : P) :
    ∀ (A a : List Bytes) (j : Nat) (e : Bytes), a.length = A.length → (∀ k ∈ A, k.length = 33) →
    Walk C m i j (beNat e) (A ++ key :: B) (a ++ s :: c) last → ∃ e', knownLoop C b i m j A (a ++ s :: c) e = some e' ∧
      Walk C m i (j + A.length) (beNat e') (key :: B) (s :: c) last
  | [], a, j, e => by
    intro ha _ hw
    have : a = [] := by simpa using ha
    subst this
    exact ⟨e, by unfold knownLoop; rfl, hw⟩
  | k :: A, [], j, e => fun h => by simp at h
  | k :: A, t :: a, j, e => by
    intro ha hk hw
    have hlen : ∀ p : P, m.length + (C.compressed p).length ≤ 1000 := fun p => by rw [compressed_length, hm]; decide
    rw [List.cons_append, List.cons_append] at hw
    generalize hA : A ++ key :: B = rest at hw
    generalize ha' : a ++ s :: c = rest' at hw
    cases hw with
    | last => simp at hA
    | step he hs hQ h0 hw =>
      subst hA; subst ha'
      have hu := (walk_usable hw).2
      rw [← hash_challenge (b := b) _ _ _ _ (hlen _)] at hw
      obtain ⟨e', h1, h2⟩ := walk_known m hm i key s B c last A a (j + 1) _ (by simpa using ha) (fun x hx => hk x (by simp [hx])) hw
      refine ⟨e', ?_, by rwa [show j + (k :: A).length = j + 1 + A.length by simp; omega]⟩
      rw [List.cons_append]
      unfold knownLoop
      dsimp only
      rw [calculateR_of hs he hQ (hk k (by simp)) h0, nonzero_of_usable hs, compressed_valid,
        (hash_nonzero _ _ _ _ (hlen _)).2 (by have := hu.1; omega)]
      exact h1

theorem walk_signing (m : Bytes) (hm : m.length = 32) (i : Nat) : ∀ (B c : List Bytes) (j : Nat) (p last : P),
    (∀ k ∈ B, k.length = 33) → Walk C m i j (challenge m (C.compressed p) i j) B c last →
    signingLoop C b i m j B c (C.compressed p) = C.compressed last
  | [], c, j, p, last => fun _ hw => by cases hw
  | key :: B, [], j, p, last => fun _ hw => by cases hw
  | key :: B, s :: c, j, p, last => by
    intro hk hw
    have hlen : ∀ p : P, m.length + (C.compressed p).length ≤ 1000 := fun p => by rw [compressed_length, hm]; decide
    have hk1 := hk key (by simp)
    unfold signingLoop
    dsimp only
    have hh := hash_challenge (b := b) m (C.compressed p) i j (hlen _)
    have hu := (walk_usable hw).2
    rw [← hh] at hw hu
    rw [nonzero_of_usable hu]
    cases hw with
    | last he hs hQ h0 hc =>
      rw [nonzero_of_usable hs, calculateR_of hs he hQ hk1 h0, compressed_valid]
      unfold signingLoop
      rfl
    | step he hs hQ h0 hw =>
      rw [nonzero_of_usable hs, calculateR_of hs he hQ hk1 h0, compressed_valid]
      exact walk_signing m hm i B c (j + 1) _ last (fun x hx => hk x (by simp [hx])) hw

theorem walk_ne {m : Bytes} {i j e : Nat} {ring ss : List Bytes} {R : P} (hw : Walk C m i j e ring ss R) : R ≠ 0 := by
  induction hw with
  | last _ _ _ h => exact h
  | step _ _ _ _ _ ih => exact ih

/-- One ring: there is a salt with which signing gives the proofs that are there. -/
theorem ring_salt (m : Bytes) (hm : m.length = 32) (i : Nat) {ring ss : List Bytes} {known : Nat} {key x e0 : Bytes} {last : P}
    (hl : ss.length = ring.length) (hb : ∀ s ∈ ss, s.length = 32) (hk : ∀ k ∈ ring, k.length = 33) (hkey : ring[known]? = some key)
    (hx : Usable C (beNat x)) (hpub : key = C.compressed (beNat x • C.generator))
    (hw : Walk C m i 0 (beNat e0) ring ss last) :
    ∃ salt e, salt.length = 32 ∧ lastRSigning C b ring i m ss known salt = C.compressed last ∧
      knownLoop C b i m 0 (ring.take known) ss e0 = some e ∧
      Scalar.nonzero (Scalar.sub C salt (Scalar.mul C e x)) = true ∧ ss.set known (Scalar.sub C salt (Scalar.mul C e x)) = ss := by
  have hn : known < ring.length := (List.getElem?_eq_some_iff.1 hkey).1
  have hn' : known < ss.length := by omega
  have hlen : ∀ p : P, m.length + (C.compressed p).length ≤ 1000 := fun p => by rw [compressed_length, hm]; decide
  have er := split_at hkey
  have es := split_at (List.getElem?_eq_getElem hn')
  have ht : (ring.take known).length = known := List.length_take_of_le (by omega)
  have ht' : (ss.take known).length = known := List.length_take_of_le (by omega)
  generalize hs : ss[known] = s at es
  have hsl : s.length = 32 := hb s (by rw [← hs]; exact List.getElem_mem _)
  rw [er, es] at hw
  obtain ⟨e, h1, h2⟩ := walk_known (b := b) m hm i key s _ _ last _ _ 0 e0 (by rw [ht, ht']) (fun k hk' => hk k (List.mem_of_mem_take hk')) hw
  rw [← es] at h1
  rw [ht, Nat.zero_add] at h2
  have hQx : C.parse key = some (beNat x • C.generator) := by rw [hpub]; exact C.parse_compressed _ (smul_ne hx (generator_ne C))
  have core : Usable C (beNat e) ∧ Usable C (beNat s) ∧ beNat s • C.generator + beNat e • beNat x • C.generator ≠ 0 ∧
      signingLoop C b i m (known + 1) (ring.drop (known + 1)) (ss.drop (known + 1))
        (C.compressed (beNat s • C.generator + beNat e • beNat x • C.generator)) = C.compressed last := by
    generalize hB : ring.drop (known + 1) = B at h2
    generalize hc : ss.drop (known + 1) = c at h2
    have hkB : ∀ k ∈ B, k.length = 33 := fun k hk' => hk k (List.mem_of_mem_drop (hB ▸ hk'))
    cases h2 with
    | last he hs hQ h0 _ =>
      rw [hQx] at hQ
      injection hQ with hQ
      rw [← hQ] at h0 ⊢
      exact ⟨he, hs, h0, by unfold signingLoop; rfl⟩
    | step he hs hQ h0 hw =>
      rw [hQx] at hQ
      injection hQ with hQ
      rw [← hQ] at h0 hw
      exact ⟨he, hs, h0, walk_signing m hm i B c (known + 1) _ last hkB hw⟩
  obtain ⟨he, hsu, h0, hloop⟩ := core
  have hsum : beNat s • C.generator + beNat e • beNat x • C.generator = ((beNat s + beNat e * beNat x) % C.order) • C.generator := by
    rw [mod_smul, add_smul, mul_smul]
  generalize hkv : (beNat s + beNat e * beNat x) % C.order = kv at hsum
  have hkl : kv < C.order := by rw [← hkv]; exact Nat.mod_lt _ C.prime.pos
  have hk0 : kv ≠ 0 := by rintro rfl; rw [hsum, zero_smul] at h0; exact h0 rfl
  have hbe : beNat (beBytes 32 kv) = kv := Der.beNat_beBytes (lt256 C hkl)
  have hku : Usable C (beNat (beBytes 32 kv)) := by rw [hbe]; exact ⟨by omega, hkl⟩
  obtain ⟨r, hr, hr2, -⟩ := close hku he hx
  have hrs : r = beNat s := by
    rw [hbe, ← hkv] at hr2
    have h3 : r ≡ beNat s [MOD C.order] := Nat.ModEq.add_right_cancel' _ hr2
    have := Nat.ModEq.eq_of_lt_of_lt h3 hr.1 hsu.2
    exact this
  have hsub : Scalar.sub C (beBytes 32 kv) (Scalar.mul C e x) = s := by
    rw [hr.2, hrs]
    refine Der.beNat_inj (by simp [hsl]) (Der.beNat_beBytes ?_)
    exact lt256 C hsu.2
  refine ⟨beBytes 32 kv, e, by simp, ?_, h1, ?_, ?_⟩
  · unfold lastRSigning
    dsimp only
    rw [mul_compressed (generator_ne C) _ hku, compressed_valid, hbe, ← hsum]
    exact hloop
  · rw [hsub]; exact nonzero_of_usable hsu
  · rw [hsub, ← hs, List.set_getElem_self]

theorem rings_salts (m e0 : Bytes) (hm : m.length = 32) (he : e0.length = 32) {keys : Keys}
    (hkeys : ∀ k x, keys.find k = some x → Usable C (beNat x) ∧ k = C.compressed (beNat x • C.generator)) :
    ∀ (rings proofs : List (List Bytes)) (known : List Nat) (ends : List P) (n : Nat),
    Shape rings proofs → List.Forall₂ (Known keys) rings known → ends.length = rings.length →
    (∀ i ring ss R, rings[i]? = some ring → proofs[i]? = some ss → ends[i]? = some R →
      Walk C m (n + i) 0 (challenge m e0 (n + i) 0) ring ss R) →
    ∃ salts : List Bytes, salts.length = rings.length ∧ (∀ s ∈ salts, s.length = 32) ∧
      e0Parts C b m n rings proofs salts known = some (ends.map C.compressed) ∧
      joinRings C b e0 m keys n rings proofs salts known = some proofs
  | [], proofs, known, ends, n => by
    intro hsh _ hl _
    have h1 : ends = [] := by simpa using hl
    have h2 : proofs = [] := by simpa using hsh.count
    subst h1; subst h2
    exact ⟨[], rfl, fun _ h => by simp at h, by unfold e0Parts; rfl, by unfold joinRings; rfl⟩
  | ring :: rings, [], _, _, _ => fun h => by have := h.count; simp at this
  | ring :: rings, ss :: proofs, [], _, _ => fun _ h => by cases h
  | ring :: rings, ss :: proofs, kn :: known, [], _ => fun _ _ h => by simp at h
  | ring :: rings, ss :: proofs, kn :: known, last :: ends, n => by
    intro hsh hkn hl hall
    obtain ⟨⟨key, x, hkey, hfind⟩, hkn⟩ := List.forall₂_cons.1 hkn
    have hlen : m.length + e0.length ≤ 1000 := by rw [hm, he]; decide
    obtain ⟨hu, hpub⟩ := hkeys key x hfind
    obtain ⟨salts, hs1, hs2, hs3, hs4⟩ := rings_salts m e0 hm he hkeys rings proofs known ends (n + 1) (shape_tail hsh) hkn (by simpa using hl)
      (fun i r s R h1 h2 h3 => by
        have := hall (i + 1) r s R (by simpa using h1) (by simpa using h2) (by simpa using h3)
        rwa [show n + (i + 1) = n + 1 + i by omega] at this)
    have hw := hall 0 ring ss last rfl rfl rfl
    rw [Nat.add_zero] at hw
    have hue := (walk_usable hw).2
    rw [← hash_challenge (b := b) _ _ _ _ hlen] at hw hue
    obtain ⟨salt, e, h1, h2, h3, h4, h5⟩ := ring_salt (C := C) (b := b) m hm n (hsh.each 0 ring ss rfl rfl)
      (hsh.bytes ss (by simp)) (hsh.keys ring (by simp)) hkey hu hpub hw
    refine ⟨salt :: salts, by simp [hs1], fun s hs => ?_, ?_, ?_⟩
    · rcases List.mem_cons.1 hs with rfl | hs
      · exact h1
      · exact hs2 s hs
    · unfold e0Parts
      dsimp only
      rw [h2, compressed_valid, hs3]
      rfl
    · unfold joinRings
      dsimp only
      rw [nonzero_of_usable hue, h3, hkey]
      dsimp only
      rw [hfind]
      dsimp only
      rw [h4, hs4, h5]
      rfl

/-- **C74** A signature does not tell who signed: whoever has secrets for all the rings could, for some salts, have made any signature that
verifies. -/
theorem C74_signer (rings : List (List Bytes)) (secrets : List Bytes) (m : Bytes) (signature : Signature) (hm : m.length = 32)
    (hc : signature.challenge.length = 32) (h : Shape rings signature.proofs) (hv : verify C b rings m signature = true)
    (hs : CanSign C rings secrets) :
    ∃ salts : List Bytes, salts.length = rings.length ∧ (∀ s ∈ salts, s.length = 32) ∧
      sign C b signature.proofs secrets rings m salts = some signature := by
  have hr : rings.length < 2 ^ 32 - 1 := by
    unfold verify at hv
    split at hv
    · cases hv
    · rename_i hn
      simp at hn
      omega
  obtain ⟨ends, hl, -, hall, he⟩ := (C74_verify rings m signature hm hc h hr).1 hv
  obtain ⟨keys, hg, -, hk⟩ := generate_of (C := C) secrets [] hs.1
  have hkeys : ∀ k x, keys.find k = some x → Usable C (beNat x) ∧ k = C.compressed (beNat x • C.generator) := by
    intro k x hk
    obtain ⟨hsec, hkeys⟩ := generate_some secrets [] keys hg
    rcases hkeys k x hk with h | ⟨h1, h2⟩
    · cases h
    · exact ⟨hsec x h1, h2⟩
  obtain ⟨known, hi⟩ := indexes_of (keys := keys) (rings := rings) (fun ring hring => by
    obtain ⟨x, hx1, hx2⟩ := hs.2 ring hring
    exact ⟨_, hx2, hk x hx1⟩)
  obtain ⟨salts, hs1, hs2, hs3, hs4⟩ := rings_salts (C := C) (b := b) m signature.challenge hm hc hkeys rings signature.proofs known ends 0 h
    (indexes_some hi) hl (fun i r s R h1 h2 h3 => by rw [Nat.zero_add]; exact hall i r s R h1 h2 h3)
  have hsink : sink b (ends.map C.compressed ++ [m]) = signature.challenge := by
    rw [sink_eq _ (by rw [List.flatten_append, List.length_append, ends_length]; simp; omega), he, List.flatten_append, List.flatMap_def]
    simp
  refine ⟨salts, hs1, hs2, ?_⟩
  unfold sign
  rw [if_neg (by omega), hg]
  dsimp only
  rw [hi]
  dsimp only
  unfold calculateE0
  rw [hs3]
  dsimp only
  rw [hsink, hs4]

theorem walk_met {m : Bytes} {i j e : Nat} {ring ss : List Bytes} {R : P} (hw : Walk C m i j e ring ss R) :
    ∀ {j' e' : Nat}, Met C m i j e ring ss j' e' → e' ≠ 0 ∧ (j' < j + ring.length → e' < C.order) := by
  induction hw with
  | last he hs hQ h0 hc =>
    intro j' e' hM
    cases hM with
    | here => exact ⟨by have := he.1; omega, fun _ => he.2⟩
    | next hQ' hM =>
      rw [hQ] at hQ'
      injection hQ' with hQ'
      subst hQ'
      cases hM with
      | here => exact ⟨hc, fun h => absurd h (by simp)⟩
  | step he hs hQ h0 hw ih =>
    intro j' e' hM
    cases hM with
    | here => exact ⟨by have := he.1; omega, fun _ => he.2⟩
    | next hQ' hM =>
      rw [hQ] at hQ'
      injection hQ' with hQ'
      subst hQ'
      obtain ⟨h1, h2⟩ := ih hM
      exact ⟨h1, fun h => h2 (by simp at h; omega)⟩

theorem sign_shape (proofs rings : List (List Bytes)) (secrets salts : List Bytes) (m : Bytes) (signature : Signature) (hm : m.length = 32)
    (h : Shape rings proofs) (hs : sign C b proofs secrets rings m salts = some signature) :
    signature.challenge.length = 32 ∧ Shape rings signature.proofs := by
  have hset := (C74_needs proofs rings secrets salts m signature hs).2
  unfold sign at hs
  split at hs
  · cases hs
  rename_i hr
  split at hs
  · cases hs
  split at hs
  · cases hs
  split at hs
  · cases hs
  rename_i e0 he
  split at hs
  · cases hs
  rename_i ps hj
  injection hs with hs
  subst hs
  have hl : e0.length = 32 := by
    unfold calculateE0 at he
    split at he
    · cases he
    rename_i parts hp
    injection he with he
    rw [← he, sink_eq _ (by
      have := parts_length m hm rings proofs salts _ 0 parts h hp
      rw [List.flatten_append, List.length_append, this]
      simp; omega)]
    exact sha_length _
  refine ⟨hl, ⟨h.keys, join_count _ _ _ _ _ _ _ _ _ hj, fun i ring ss h1 h2 => ?_, fun ss hss s hs => ?_⟩⟩
  · obtain ⟨t, n, y, h3, rfl, -⟩ := hset i ss h2
    rw [List.length_set]
    exact h.each i ring t h1 h3
  · obtain ⟨i, hi⟩ := List.getElem?_of_mem hss
    obtain ⟨t, n, y, h3, rfl, hy⟩ := hset i ss hi
    rcases List.mem_or_eq_of_mem_set hs with hm' | rfl
    · exact h.bytes t (List.mem_of_getElem? h3) s hm'
    · exact hy

/-- **C74** What is signed verifies, unless a challenge on the way around a ring is zero or, but for the last, too large to multiply a point:
a hash that no one is known to be able to find. -/
theorem C74_complete (proofs rings : List (List Bytes)) (secrets salts : List Bytes) (m : Bytes) (signature : Signature) (hm : m.length = 32)
    (h : Shape rings proofs) (hs : sign C b proofs secrets rings m salts = some signature) :
    verify C b rings m signature = true ↔ ∀ i ring ss j e, rings[i]? = some ring → signature.proofs[i]? = some ss →
      Met C m i 0 (challenge m signature.challenge i 0) ring ss j e → e ≠ 0 ∧ (j < ring.length → e < C.order) := by
  refine ⟨fun hv i ring ss j e h1 h2 h3 => ?_, sign_verifies proofs rings secrets salts m signature hm h hs⟩
  obtain ⟨hc, hshape⟩ := sign_shape proofs rings secrets salts m signature hm h hs
  have hr : rings.length < 2 ^ 32 - 1 := by
    unfold verify at hv
    split at hv
    · cases hv
    · rename_i hn
      simp at hn
      omega
  obtain ⟨ends, hl, -, hall, -⟩ := (C74_verify rings m signature hm hc hshape hr).1 hv
  have hi : i < ends.length := by rw [hl]; exact (List.getElem?_eq_some_iff.1 h1).1
  have := walk_met (hall i ring ss ends[i] h1 h2 (List.getElem?_eq_getElem hi)) h3
  rwa [Nat.zero_add] at this

/-! ## What is not so -/

/-- The digest does not tell how the keys are divided into rings, nor where the message ends. -/
theorem C74_digest_counterexample (message k l : Bytes) :
    digest b message [[k], [l]] = digest b message [[k, l]] ∧
    (message.length + k.length + l.length ≤ 2 ^ 60 → digest b (message ++ k) [[l]] = digest b message [[k, l]]) := by
  refine ⟨rfl, fun h => ?_⟩
  rw [C74_digest _ _ (by simp; omega), C74_digest _ _ (by simp; omega)]
  simp

theorem verifyLoop_extra (m : Bytes) (i : Nat) (x : List Bytes) : ∀ (ring ss : List Bytes) (j : Nat) (e R : Bytes), ss.length = ring.length →
    verifyLoop C b i m j ring (ss ++ x) e R = verifyLoop C b i m j ring ss e R
  | [], _, _, _, _ => fun _ => by unfold verifyLoop; rfl
  | _ :: _, [], _, _, _ => fun h => by simp at h
  | key :: ring, s :: ss, j, e, R => by
    intro h
    rw [List.cons_append]
    unfold verifyLoop
    dsimp only
    rw [verifyLoop_extra m i x ring ss (j + 1) _ _ (by simpa using h)]

/-- A signature that verifies still does so with proofs added to a ring: their number is not checked. -/
theorem C74_extra_counterexample (ring ss x : List Bytes) (m e : Bytes) (h : ss.length = ring.length) :
    verify C b [ring] m ⟨e, [ss ++ x]⟩ = verify C b [ring] m ⟨e, [ss]⟩ := by
  unfold verify
  simp only [List.length_cons, List.length_nil]
  unfold verifyParts
  dsimp only
  rw [verifyLoop_extra m 0 x ring ss 0 _ _ h]

/-! ## An instance: a ring of two keys, the second one known -/

namespace Instance
/-- The digest, the challenges and the proofs, computed apart from the model. -/
def m : Bytes := List.replicate 32 7
def e0 : Bytes := beBytes 32 79510631930757833829389195851896650402485622574889855657988728762035781009651
def c0 : Nat := 94462851791025926869600037527445370920744804779828278747555641669036862488573
def c1 : Nat := 19039075745000679915475924568095248319803089017023118114015534645896377003026
def c2 : Nat := 61932305530394317423279996762366155446890254356215726289321673735966634685931
def r0 : Nat := 40103390706704472783379682903895800068634253462817604427364885458892740116449
def s0 : Bytes := beBytes 32 3
def s1 : Bytes := beBytes 32 20527803476786438857337613565682692432137267708546824330013168136580832453554
def enc (n : Nat) : Bytes := 2 :: beBytes 32 n

theorem enc_eq (n : Nat) : Toy.curve.compressed ((n : Nat) : ZMod Toy.prime) = enc (n % Toy.prime) := by
  show 2 :: beBytes 32 ((n : Nat) : ZMod Toy.prime).val = _
  rw [ZMod.val_natCast]; rfl

theorem smul_cast (s e q : Nat) : s • Toy.curve.generator + e • ((q : Nat) : ZMod Toy.prime) = ((s + e * q : Nat) : ZMod Toy.prime) := by
  show s • (1 : ZMod Toy.prime) + _ = _
  simp

theorem hc0 : challenge m e0 0 0 = c0 := by rw [← hash_challenge (b := .portable) _ _ _ _ (by decide)]; decide +kernel
theorem hc1 : challenge m (enc r0) 0 1 = c1 := by rw [← hash_challenge (b := .portable) _ _ _ _ (by decide)]; decide +kernel
theorem hc2 : challenge m (enc 11) 0 2 = c2 := by rw [← hash_challenge (b := .portable) _ _ _ _ (by decide)]; decide +kernel
theorem he0 : e0 = Spec.Hash.sha256.digest (enc 11 ++ m) := by
  have := sink_eq (b := .portable) [enc 11, m] (by decide)
  rw [show [enc 11, m].flatten = enc 11 ++ m by simp] at this
  rw [← this]; decide +kernel

theorem parse_eq (n : Nat) (h : (n : ZMod Toy.prime) ≠ 0) (hn : n < Toy.prime) : Toy.curve.parse (enc n) = some (n : ZMod Toy.prime) := by
  have := Toy.curve.parse_compressed _ h
  rwa [enc_eq, Nat.mod_eq_of_lt hn] at this

theorem ne (n : Nat) (h : 0 < n) (hn : n < Toy.prime) : (n : ZMod Toy.prime) ≠ 0 := fun e =>
  absurd (Nat.le_of_dvd h ((ZMod.natCast_eq_zero_iff n Toy.prime).1 e)) (by omega)

theorem usable (n : Nat) (h : 0 < n ∧ n < Toy.prime) : Usable Toy.curve n := h

theorem accepts : Accepts Toy.curve [[enc 9, enc 5]] m e0 [[s0, s1]] := by
  have b0 : beNat s0 = 3 := Der.beNat_beBytes (by decide)
  have b1 : beNat s1 = 20527803476786438857337613565682692432137267708546824330013168136580832453554 := Der.beNat_beBytes (by decide)
  have v0 : beNat s0 • Toy.curve.generator + c0 • ((9 : Nat) : ZMod Toy.prime) = ((r0 : Nat) : ZMod Toy.prime) := by
    rw [smul_cast, ← ZMod.natCast_mod, b0, show (3 + c0 * 9) % Toy.prime = r0 by decide +kernel]
  have v1 : beNat s1 • Toy.curve.generator + c1 • ((5 : Nat) : ZMod Toy.prime) = ((11 : Nat) : ZMod Toy.prime) := by
    rw [smul_cast, ← ZMod.natCast_mod, b1, show (20527803476786438857337613565682692432137267708546824330013168136580832453554 + c1 * 5) % Toy.prime = 11 by decide +kernel]
  have q0 : (r0 : ZMod Toy.prime) ≠ 0 := ne _ (by decide) (by decide)
  have q1 : ((11 : Nat) : ZMod Toy.prime) ≠ 0 := ne _ (by decide) (by decide)
  refine ⟨[((11 : Nat) : ZMod Toy.prime)], rfl, rfl, ?_, ?_⟩
  · intro i ring ss R h1 h2 h3
    cases i with
    | succ i => simp at h1
    | zero =>
      simp only [List.getElem?_cons_zero, Option.some.injEq] at h1 h2 h3
      subst h1; subst h2; subst h3
      rw [hc0]
      have w2 : Walk Toy.curve m 0 1 c1 [enc 5] [s1] (beNat s1 • Toy.curve.generator + c1 • ((5 : Nat) : ZMod Toy.prime)) := by
        refine .last (usable _ (by decide)) (by rw [b1]; exact usable _ (by decide)) (parse_eq 5 (ne _ (by decide) (by decide)) (by decide)) (by rw [v1]; exact q1) ?_
        rw [v1, enc_eq, Nat.mod_eq_of_lt (by decide), hc2]
        decide
      rw [v1] at w2
      refine .step (usable _ (by decide)) (by rw [b0]; exact usable _ (by decide)) (parse_eq 9 (ne _ (by decide) (by decide)) (by decide)) (by rw [v0]; exact q0) ?_
      rw [v0, enc_eq, Nat.mod_eq_of_lt (by decide), hc1]
      exact w2
  · rw [List.flatMap_cons, List.flatMap_nil, List.append_nil, enc_eq, Nat.mod_eq_of_lt (by decide)]
    exact he0

theorem shape : Shape [[enc 9, enc 5]] [[s0, s1]] where
  keys := by
    intro r hr k hk
    simp only [List.mem_cons, List.not_mem_nil, or_false] at hr
    subst hr
    simp only [List.mem_cons, List.not_mem_nil, or_false] at hk
    rcases hk with rfl | rfl <;> rfl
  count := rfl
  each := by
    intro i r s h1 h2
    cases i with
    | succ i => simp at h1
    | zero =>
      simp only [List.getElem?_cons_zero, Option.some.injEq] at h1 h2
      subst h1; subst h2; rfl
  bytes := by
    intro r hr k hk
    simp only [List.mem_cons, List.not_mem_nil, or_false] at hr
    subst hr
    simp only [List.mem_cons, List.not_mem_nil, or_false] at hk
    rcases hk with rfl | rfl <;> rfl

/-- The signature verifies, and either key holder, for some salt, makes it. -/
theorem instance_verifies : verify Toy.curve .portable [[enc 9, enc 5]] m ⟨e0, [[s0, s1]]⟩ = true :=
  (C74_verify _ _ _ (by decide) (by decide) shape (by decide)).2 accepts

theorem can (n : Nat) (h : 0 < n ∧ n < Toy.prime) (hr : enc n ∈ [enc 9, enc 5]) : CanSign Toy.curve [[enc 9, enc 5]] [beBytes 32 n] := by
  have hb : beNat (beBytes 32 n) = n := Der.beNat_beBytes (lt256 Toy.curve h.2)
  refine ⟨fun y hy => ?_, fun r hr' => ⟨_, List.mem_singleton.2 rfl, ?_⟩⟩
  · rcases List.mem_singleton.1 hy with rfl
    rw [hb]; exact h
  · rcases List.mem_singleton.1 hr' with rfl
    rw [hb]
    have := enc_eq n
    rw [Nat.mod_eq_of_lt h.2] at this
    rw [show n • Toy.curve.generator = (n : ZMod Toy.prime) by show n • (1 : ZMod Toy.prime) = _; simp, this]
    exact hr

example : (∃ salts, sign Toy.curve .portable [[s0, s1]] [beBytes 32 5] [[enc 9, enc 5]] m salts = some ⟨e0, [[s0, s1]]⟩) ∧
    ∃ salts, sign Toy.curve .portable [[s0, s1]] [beBytes 32 9] [[enc 9, enc 5]] m salts = some ⟨e0, [[s0, s1]]⟩ := by
  obtain ⟨a, -, -, ha⟩ := C74_signer (C := Toy.curve) (b := .portable) [[enc 9, enc 5]] [beBytes 32 5] m ⟨e0, [[s0, s1]]⟩ (by decide) (by decide)
    shape instance_verifies (can 5 (by decide) (by simp))
  obtain ⟨c, -, -, hc⟩ := C74_signer (C := Toy.curve) (b := .portable) [[enc 9, enc 5]] [beBytes 32 9] m ⟨e0, [[s0, s1]]⟩ (by decide) (by decide)
    shape instance_verifies (can 9 (by decide) (by simp))
  exact ⟨⟨a, ha⟩, ⟨c, hc⟩⟩
end Instance

end Verif.Ring
