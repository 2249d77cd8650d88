import Verif.Lemmas.Lanes
import Verif.Props.Merkle
/-!
# C91: Merkle roots of every build are those of double SHA-256
-/
namespace Verif.Lanes
open Verif Verif.Sha Verif.Native Verif.Hash
open Verif.Merkle (stateAt pairs)

/-- Double SHA-256 (FIPS 180-4) of two values. -/
def sha256d (l r : Bytes) : Bytes := Spec.Hash.sha256.digest (Spec.Hash.sha256.digest (l ++ r))

theorem sha256_length (m : Bytes) : (Spec.Hash.sha256.digest m).length = 32 := by
  unfold Spec.Hash.Sha2.digest
  dsimp only
  rw [List.length_take, List.length_flatMap]
  simp [Spec.Hash.Vars.toList, Spec.Hash.beRep]
  rfl

theorem prepare_len {W : Type} (o : Ops W) (l : List W) (r : Nat) : (prepare o l r).length = l.length := by simp [prepare]
theorem konstant_len {W : Type} (o : Ops W) (l : List W) (r : Nat) : (konstant1 o l r).length = l.length := by simp [konstant1]
theorem round_len {W : Type} (o : Ops W) (wk l : List W) (r : Nat) : (round o wk l r).length = l.length := by simp [round]
theorem summarize_len {W : Type} (o : Ops W) (i l : List W) (r : Nat) : (summarize1 o i l r).length = l.length := by simp [summarize1]

theorem fold_len {W β : Type} (f : List W → β → List W) (h : ∀ l x, (f l x).length = l.length) (xs : List β) (l : List W) :
    (xs.foldl f l).length = l.length := by
  induction xs generalizing l with
  | nil => rfl
  | cons x xs ih => rw [List.foldl_cons, ih, h]

theorem schedule_len {W : Type} (o : Ops W) (l : List W) : (schedule o l).length = l.length := by
  rw [schedule, fold_len _ (konstant_len o), fold_len _ (prepare_len o)]
theorem compress_len {W : Type} (o : Ops W) (s wk : List W) : (compress o s wk).length = s.length := by
  rw [compress, fold_len _ (summarize_len o s), fold_len _ (summarize_len o s), fold_len _ (round_len o wk)]

/-- The lanes computed together are the double hashes of the blocks; whatever the buffer held before. -/
theorem hashLanes_eq {L : Nat} (xbuffer : List (Reg L)) (hx : xbuffer.length = 64) (blocks : Fin L → Bytes) (i : Fin L) (h : (blocks i).length = 64) :
    (hashLanes xbuffer blocks).1 i = Spec.Hash.sha256.digest (Spec.Hash.sha256.digest (blocks i)) ∧ (hashLanes xbuffer blocks).2.length = 64 := by
  refine ⟨?_, ?_⟩
  · have hg := sha2_compresses Sha.sha256 Spec.Hash.sha256 (Or.inl rfl) matches256
    have hA := native_lawful (a := .intel) k_eq (p := Sha.sha256) rfl
    unfold hashLanes
    dsimp only
    rw [unpack_lane i _ (by rw [compress_len]; rfl), compress_lane, schedule_lane, padHalf_lane, inject_lane, compress_lane, compress_lane, schedule_lane,
      xinput_lane i _ _ h, packState_lane, schedule1_lane]
    have e1 := compress_input Build.portable hg Sha.sha256.H hg.hlen (blocks i) (lane i xbuffer) (by rw [lane_length, hx]; rfl)
    rw [schedule_eq _ _ hg.eight] at e1
    rw [e1, schedule1_eq Build.portable hg _ rfl]
    have hv : (blockFn (sha2Fn Spec.Hash.sha256) (blockFn (sha2Fn Spec.Hash.sha256) Sha.sha256.H (blocks i))
      (padBlock (shaAlgorithm Build.portable Sha.sha256) 1)).length = 8 := rfl
    have key : Spec.Hash.sha256.digest (blocks i) = output Sha.sha256 (blockFn (sha2Fn Spec.Hash.sha256)
        (blockFn (sha2Fn Spec.Hash.sha256) Sha.sha256.H (blocks i)) (padBlock (shaAlgorithm Build.portable Sha.sha256) 1)) := by
      rw [← digest_native .intel, digest_blocks hA _ 1 (by rw [h]; rfl), blocksOf_one (by show 0 < 64; decide) _ (by rw [h]; rfl)]
      rfl
    rw [key]
    generalize blockFn (sha2Fn Spec.Hash.sha256) (blockFn (sha2Fn Spec.Hash.sha256) Sha.sha256.H (blocks i))
      (padBlock (shaAlgorithm Build.portable Sha.sha256) 1) = s at hv ⊢
    have e2 := second_eq Build.portable hg (Sha.schedule1 Sha.sha256) s (by rw [Sha.schedule1, scheduledPad, scheduleScalar_length]; simp [buffer0]) hv rfl rfl
    rw [second, schedule_eq _ _ hg.eight] at e2
    rw [e2, ← digest_native .intel]
    have hs : (output Sha.sha256 s).length = 32 := (native_double (a := .intel) k_eq (p := Sha.sha256) rfl rfl).len s hv
    exact half_digest .intel _ hs
  · unfold hashLanes
    dsimp only
    rw [schedule_len, padHalf, setMany_length, injectLeftHalf, setMany_length, schedule1, List.length_map, List.length_range]

/-- Every digest is 32 bytes. -/
def Digests (d : List Bytes) : Prop := ∀ x ∈ d, x.length = 32

theorem doubleHash_eq (b : Build) (l r : Bytes) (hl : l.length = 32) (hr : r.length = 32) : b.doubleHash l r = sha256d l r := by
  unfold Build.doubleHash sha256d
  split
  · exact (C90_pair _ l r hl hr).2
  · exact (pair_digest b.sha Sha.sha256 Spec.Hash.sha256 (Or.inl rfl) matches256 l r hl hr).2.1 rfl

theorem setMany_eq {α : Type} (d xs : List α) (n : Nat) (h : n + xs.length ≤ d.length) : setMany d n xs = d.take n ++ xs ++ d.drop (n + xs.length) := by
  induction xs generalizing d n with
  | nil => simp [setMany]
  | cons x xs ih =>
    rw [setMany, ih _ _ (by simp at h ⊢; omega)]
    simp only [List.length_cons] at h ⊢
    apply List.ext_getElem?
    intro i
    simp only [List.getElem?_append, List.length_append, List.length_take, List.length_set, List.getElem?_take, List.getElem?_drop, List.getElem?_set,
      List.length_cons]
    rw [Nat.min_eq_left (by omega), Nat.min_eq_left (by omega)]
    by_cases h1 : i < n
    · simp [h1, show i < n + 1 by omega, show i < n + (xs.length + 1) by omega, show i < n + 1 + xs.length by omega, show n ≠ i by omega]
    · by_cases h2 : i = n
      · subst h2
        simp [show i < i + 1 by omega, show i < i + 1 + xs.length by omega, show i < d.length by omega]
      · by_cases h3 : i < n + 1 + xs.length
        · obtain ⟨k, rfl⟩ : ∃ k, i = n + (k + 1) := ⟨i - n - 1, by omega⟩
          simp [h3, show ¬ n + (k + 1) < n + 1 by omega, show n + (k + 1) < n + (xs.length + 1) by omega, show n + (k + 1) - (n + 1) = k by omega]
        · simp only [h1, h3, show ¬ i < n + 1 by omega, show ¬ i < n + (xs.length + 1) by omega, if_false]
          rw [if_neg (by omega)]
          congr 1
          omega

theorem pairs_getD (H : Bytes → Bytes → Bytes) (d : List Bytes) (k : Nat) (h : k < d.length / 2) :
    (pairs H d)[k]? = some (H (d.getD (2 * k) []) (d.getD (2 * k + 1) [])) := by
  refine Merkle.pairs_get H d k _ _ ?_ ?_
  · rw [List.getD_eq_getElem?_getD, List.getElem?_eq_getElem (by omega)]; rfl
  · rw [List.getD_eq_getElem?_getD, List.getElem?_eq_getElem (by omega)]; rfl

theorem vectorRound_eq (b : Build) (L : Nat) (d : List Bytes) (hd : Digests d) : ∀ fuel (xbuffer : List (Reg L)) next, xbuffer.length = 64 → next ≤ d.length / 2 →
    ∃ next', next' ≤ d.length / 2 ∧ vectorRound L fuel xbuffer next (stateAt b.doubleHash d next) = (next', stateAt b.doubleHash d next')
  | 0, _, next, _, h => ⟨next, h, rfl⟩
  | fuel + 1, xbuffer, next, hx, h => by
    unfold vectorRound
    rw [Merkle.stateAt_length _ d next h]
    split
    · rename_i hc
      dsimp only
      have hg : ∀ k, next ≤ k → (stateAt b.doubleHash d next).getD k [] = d.getD k [] := fun k hk => by
        rw [List.getD_eq_getElem?_getD, List.getD_eq_getElem?_getD, Merkle.stateAt_get _ d next k h hk]
      have h32 : ∀ k, k < d.length → (d.getD k []).length = 32 := fun k hk => by
        rw [List.getD_eq_getElem?_getD, List.getElem?_eq_getElem hk]
        exact hd _ (List.getElem_mem hk)
      have hb : ∀ i : Fin L, blockAt (stateAt b.doubleHash d next) (next + i) = d.getD (2 * (next + i)) [] ++ d.getD (2 * (next + i) + 1) [] := fun i => by
        unfold blockAt
        rw [hg _ (by omega), hg _ (by omega)]
      have hl : ∀ i : Fin L, (blockAt (stateAt b.doubleHash d next) (next + i)).length = 64 := fun i => by
        have := i.isLt
        rw [hb, List.length_append, h32 _ (by omega), h32 _ (by omega)]
      have hr := fun i => hashLanes_eq xbuffer hx (fun i : Fin L => blockAt (stateAt b.doubleHash d next) (next + i)) i (hl i)
      have hs : setMany (stateAt b.doubleHash d next) next (List.ofFn (hashLanes xbuffer fun i : Fin L => blockAt (stateAt b.doubleHash d next) (next + i)).1)
          = stateAt b.doubleHash d (next + L) := by
        rw [setMany_eq _ _ _ (by rw [List.length_ofFn, Merkle.stateAt_length _ d next h]; omega), List.length_ofFn,
          Merkle.stateAt_drop _ d next _ h (by omega)]
        have ht : (stateAt b.doubleHash d next).take next = (pairs b.doubleHash d).take next := by
          unfold stateAt
          rw [List.take_append_of_le_length (by simp [Merkle.pairs_length]; omega), List.take_take, Nat.min_self]
        rw [ht, show stateAt b.doubleHash d (next + L) = (pairs b.doubleHash d).take (next + L) ++ d.drop (next + L) from rfl, List.take_add]
        congr 2
        apply List.ext_getElem
        · simp [Merkle.pairs_length]; omega
        · intro k h1 h2
          have hk : k < L := by simpa using h1
          rw [List.getElem_ofFn, (hr ⟨k, hk⟩).1]
          have hp := pairs_getD b.doubleHash d (next + k) (by omega)
          rw [List.getElem_take, List.getElem_drop]
          rw [List.getElem?_eq_getElem (by rw [Merkle.pairs_length]; omega)] at hp
          rw [Option.some.inj hp, hb, doubleHash_eq b _ _ (h32 _ (by omega)) (h32 _ (by omega))]
          rfl
      rw [hs]
      refine vectorRound_eq b L d hd fuel _ _ ?_ (by omega)
      obtain ⟨k, hk⟩ : ∃ k, L = k + 1 := ⟨L - 1, by omega⟩
      exact (hr ⟨0, by omega⟩).2
    · exact ⟨next, h, rfl⟩

theorem vectorIf_eq (b : Build) (use : Bool) (L : Nat) (d : List Bytes) (hd : Digests d) (next : Nat) (h : next ≤ d.length / 2) :
    ∃ next', next' ≤ d.length / 2 ∧ vectorIf use L (next, stateAt b.doubleHash d next) = (next', stateAt b.doubleHash d next') := by
  unfold vectorIf
  cases use with
  | false => exact ⟨next, h, rfl⟩
  | true => exact vectorRound_eq b L d hd _ _ next (by simp) h

/-- Whatever is compiled in, the complete pairs of digests are replaced by their hashes. -/
theorem merkleHash_eq (b : Build) (d : List Bytes) (hd : Digests d) : merkleHash b d = some (pairs b.doubleHash d) := by
  have h0 := Merkle.merkleHashFrom_eq b.doubleHash d 0 (by omega)
  rw [Merkle.stateAt_zero] at h0
  unfold merkleHash merkleHashVector
  split
  · split
    · dsimp only
      obtain ⟨n1, h1, e1⟩ := vectorIf_eq b b.use512 16 d hd 0 (by omega)
      rw [Merkle.stateAt_zero] at e1
      obtain ⟨n2, h2, e2⟩ := vectorIf_eq b (b.use256 && b.native.isNone) 8 d hd n1 h1
      obtain ⟨n3, h3, e3⟩ := vectorIf_eq b (b.use128 && b.native.isNone) 4 d hd n2 h2
      rw [e1, e2, e3]
      exact Merkle.merkleHashFrom_eq _ d n3 h3
    · exact h0
  · exact h0

theorem pairs_digests (b : Build) (d : List Bytes) (hd : Digests d) : Digests (pairs b.doubleHash d) ∧ pairs b.doubleHash d = pairs sha256d d := by
  match d, hd with
  | [], _ => exact ⟨fun z hz => by simp [pairs] at hz, rfl⟩
  | [_], _ => exact ⟨fun z hz => by simp [pairs] at hz, rfl⟩
  | x :: y :: rest, hd =>
    obtain ⟨i1, i2⟩ := pairs_digests b rest fun z hz => hd z (by simp [hz])
    have e := doubleHash_eq b x y (hd x (by simp)) (hd y (by simp))
    refine ⟨?_, by rw [pairs, pairs, e, i2]⟩
    intro z hz
    rw [pairs, e] at hz
    rcases List.mem_cons.1 hz with rfl | hz
    · exact sha256_length _
    · exact i1 z hz
termination_by d.length

theorem evened_digests (d : List Bytes) (hd : Digests d) : Digests (Merkle.evened d) := by
  unfold Merkle.evened
  split
  · split
    · rename_i a ha
      intro z hz
      rcases List.mem_append.1 hz with hz | hz
      · exact hd z hz
      · rw [List.mem_singleton.1 hz]
        exact hd a (List.mem_of_getLast? ha)
    · exact hd
  · exact hd

/-- C91. One level: whatever is compiled in, the pairs of digests are replaced by their double SHA-256, in order, though they are
overwritten in place. -/
theorem C91_level (b : Build) (d : List Bytes) (hd : Digests d) (h : d.length % 2 = 0) :
    merkleHash b d = some (Merkle.Spec.level sha256d d) := by
  rw [merkleHash_eq b d hd, (pairs_digests b d hd).2, Merkle.level_eq_pairs, Merkle.evened, if_neg (by omega)]

theorem rootLoop_eq (b : Build) : ∀ (fuel : Nat) (d : List Bytes), Digests d → d ≠ [] → d.length ≤ fuel + 1 →
    ∃ r, rootLoop b fuel d = some [r] ∧ Merkle.Spec.IsRoot sha256d d r
  | 0, d, _, h0, h => by
    match d with
    | [a] => exact ⟨a, rfl, .one a⟩
    | a :: b :: l => simp at h
  | fuel + 1, d, hd, h0, h => by
    match d, hd with
    | [a], _ => exact ⟨a, rfl, .one a⟩
    | x :: y :: l, hd =>
      unfold rootLoop
      obtain ⟨p1, p2⟩ := pairs_digests b _ (evened_digests _ hd)
      rw [if_neg (by simp), merkleHash_eq b _ (evened_digests _ hd), Option.bind_some]
      rw [p2, ← Merkle.level_eq_pairs] at p1 ⊢
      have hl := Merkle.level_length sha256d (x :: y :: l)
      obtain ⟨r, h1, h2⟩ := rootLoop_eq b fuel (Merkle.Spec.level sha256d (x :: y :: l)) p1 (by simp [Merkle.Spec.level]) (by
        rw [hl]; simp only [List.length_cons] at h ⊢; omega)
      exact ⟨r, h1, .up _ _ (by simp) h2⟩

/-- C91. Whatever is compiled in (native instructions, registers of 128, 256 and 512 bits, other vectorizations), the computed root of any
digests is their Merkle root by double SHA-256 of FIPS 180-4, and the root of none is null. -/
theorem C91_root (b : Build) (d : List Bytes) (hd : Digests d) (r : Bytes) :
    (d = [] → merkleRoot b d = some (List.replicate 32 0)) ∧ (d ≠ [] → (merkleRoot b d = some r ↔ Merkle.Spec.IsRoot sha256d d r)) := by
  refine ⟨fun h => by rw [h]; rfl, fun h => ?_⟩
  obtain ⟨s, h1, h2⟩ := rootLoop_eq b d.length d hd h (by omega)
  have e : merkleRoot b d = some s := by
    unfold merkleRoot
    rw [if_neg (by simpa using h), h1]
    rfl
  rw [e]
  exact ⟨fun x => by cases x; exact h2, fun x => by rw [x.unique h2]⟩

/-- C91. All builds compute the same root. -/
theorem C91_builds (b c : Build) (d : List Bytes) (hd : Digests d) : merkleRoot b d = merkleRoot c d := by
  by_cases h : d = []
  · rw [h]; rfl
  · obtain ⟨s, h1, h2⟩ := rootLoop_eq c d.length d hd h (by omega)
    have e : merkleRoot c d = some s := by
      unfold merkleRoot
      rw [if_neg (by simpa using h), h1]
      rfl
    rw [e]
    exact ((C91_root b d hd s).2 h).2 h2

/-- C91. The lanes computed together are independent: each is the double hash of its own block, for any number of lanes and any earlier content of
the buffer. -/
theorem C91_lanes {L : Nat} (xbuffer : List (Reg L)) (hx : xbuffer.length = 64) (blocks : Fin L → Bytes) (h : ∀ i, (blocks i).length = 64) (i : Fin L) :
    (hashLanes xbuffer blocks).1 i = Spec.Hash.sha256.digest (Spec.Hash.sha256.digest (blocks i)) := (hashLanes_eq xbuffer hx blocks i (h i)).1

/-- Thirty seven digests on a build with everything: 16 lanes twice do not fit, so 16 lanes, no 8, no 4 (native), then pairs. -/
example : merkleRoot ⟨some .intel, true, true, true, Sha.Build.portable⟩ (List.replicate 37 (List.replicate 32 7)) =
    merkleRoot ⟨none, false, false, false, Sha.Build.portable⟩ (List.replicate 37 (List.replicate 32 7)) :=
  C91_builds _ _ _ fun x hx => by rw [List.eq_of_mem_replicate hx]; simp

example : ∃ r, merkleRoot ⟨none, true, true, true, ⟨true, 4, [16, 8, 4]⟩⟩ (List.replicate 33 (List.replicate 32 7)) = some r := by
  have hd : Digests (List.replicate 33 (List.replicate 32 7)) := fun x hx => by rw [List.eq_of_mem_replicate hx]; simp
  obtain ⟨r, h, _⟩ := rootLoop_eq ⟨none, true, true, true, ⟨true, 4, [16, 8, 4]⟩⟩ 33 _ hd (by decide) (by decide)
  refine ⟨r, ?_⟩
  unfold merkleRoot
  rw [if_neg (by decide), List.length_replicate, h]
  rfl

end Verif.Lanes
