import Verif.Props.Spend
import Verif.Props.Taproot
import Verif.Spec.Locks
/-!
# C103: time-locked outputs
-/
namespace Verif
open Verif.Machine (Env)
open Verif.Spec Verif.Spec.Script

/-! ### Bits of a sequence -/

theorem mask_split (v : Nat) : v &&& 0x0040ffff = (if v.testBit 22 then 2 ^ 22 else 0) + v % 2 ^ 16 := by
  have hm : (0x0040ffff : Nat) = 2 ^ 22 * 1 ||| (2 ^ 16 - 1) := by decide
  rw [hm, Nat.and_or_distrib_left, Nat.and_two_pow_sub_one_eq_mod, Nat.mul_one, Nat.and_two_pow]
  have hlt : v % 2 ^ 16 < 2 ^ 22 := Nat.lt_of_lt_of_le (Nat.mod_lt _ (by decide)) (by decide)
  cases h : v.testBit 22
  · simp
  · rw [Bool.toNat_true, Nat.one_mul, if_pos rfl]
    have := Nat.two_pow_add_eq_or_of_lt hlt 1
    rw [Nat.mul_one] at this
    exact this.symm

theorem bit31 (v : Nat) : v &&& 0x80000000 = 0 ↔ v.testBit 31 = false := by
  rw [show (0x80000000 : Nat) = 2 ^ 31 from rfl, Nat.and_two_pow]
  cases v.testBit 31 <;> simp

theorem absolute_iff (e : Env) (a : Bytes) (st : List Bytes) : lockTimeOk e (a :: st) = true ↔ Absolute a e.locktime e.sequence := by
  unfold lockTimeOk Absolute num
  dsimp only
  by_cases hl : a.length ≤ 5
  · rw [if_pos hl]
    dsimp only
    simp only [Bool.and_eq_true, decide_eq_true_eq]
    constructor
    · rintro ⟨⟨⟨h1, h2⟩, h3⟩, h4⟩
      refine ⟨hl, (scriptNum a).toNat, by omega, by omega, by omega, h4⟩
    · rintro ⟨_, n, h1, h2, h3, h4⟩
      rw [h1]
      exact ⟨⟨⟨by omega, by omega⟩, by omega⟩, h4⟩
  · rw [if_neg hl]
    simp [hl]

theorem relative_iff (e : Env) (a : Bytes) (st : List Bytes) : sequenceOk e (a :: st) = true ↔ Relative a e.version e.sequence := by
  unfold sequenceOk Relative num
  dsimp only
  by_cases hl : a.length ≤ 5
  · rw [if_pos hl]
    dsimp only
    by_cases hn : scriptNum a < 0
    · rw [if_pos hn]
      constructor
      · intro h; cases h
      · rintro ⟨_, n, h1, _⟩; omega
    · obtain ⟨n, h⟩ : ∃ n : Nat, scriptNum a = n := ⟨(scriptNum a).toNat, by omega⟩
      rw [if_neg hn, h, Int.toNat_natCast]
      have hsp : (n &&& 0x80000000 ≠ 0) ↔ n.testBit 31 = true := by
        rw [Ne, bit31]; cases n.testBit 31 <;> simp
      by_cases hb : n.testBit 31 = true
      · rw [if_pos (hsp.2 hb)]
        exact ⟨fun _ => ⟨hl, n, rfl, .inl hb⟩, fun _ => rfl⟩
      · rw [if_neg (fun x => hb (hsp.1 x))]
        simp only [Bool.and_eq_true, decide_eq_true_eq]
        rw [bit31, mask_split, mask_split]
        have l1 : n % 2 ^ 16 < 2 ^ 16 := Nat.mod_lt _ (by decide)
        have l2 : e.sequence % 2 ^ 16 < 2 ^ 16 := Nat.mod_lt _ (by decide)
        constructor
        · rintro ⟨⟨⟨h1, h2⟩, h3⟩, h4⟩
          refine ⟨hl, n, rfl, .inr ⟨h1, h2, ?_, ?_⟩⟩
          · cases c1 : n.testBit 22 <;> cases c2 : e.sequence.testBit 22 <;> rw [c1, c2] at h3 <;> simp at h3 ⊢ <;> omega
          · cases c1 : n.testBit 22 <;> cases c2 : e.sequence.testBit 22 <;> rw [c1, c2] at h3 h4 <;> simp at h3 h4 ⊢ <;> omega
        · rintro ⟨_, m, h1, h2⟩
          have : n = m := by omega
          subst this
          rcases h2 with h2 | ⟨h2, h3, h4, h5⟩
          · exact absurd h2 hb
          · rw [h4]
            refine ⟨⟨⟨h2, h3⟩, ?_⟩, by omega⟩
            cases e.sequence.testBit 22 <;> simp <;> omega
  · rw [if_neg hl]
    simp [hl]

/-! ### The first two steps -/

theorem step_loads {e : Env} {i : Nat} {op : Op} {d : Bytes} (ho : Loads op d) {t t' : State} (hx : t.exec = []) (h : step e i op t = some t') :
    t'.exec = [] ∧ t'.stack = d :: t.stack := by
  have hex : execute e i op t = some { t with stack := d :: t.stack } := by
    rcases ho with ⟨h1, rfl⟩ | ⟨k, h1, h2, rfl, rfl⟩
    · obtain ⟨p1, p2⟩ := po_code d
      unfold po at p1 p2
      unfold execute
      by_cases hz : (Machine.opcodeFromSize d.length).toNat = 0
      · rw [if_pos hz, p2 hz]
      · rw [if_neg hz, if_pos p1]
    · have hc : (UInt8.ofNat (80 + k)).toNat = 80 + k := by simp; omega
      unfold execute
      dsimp only
      rw [hc, if_neg (by omega), if_neg (by omega), if_neg (by omega), if_pos (by omega), show 80 + k - 80 = k by omega]
  have hcode : op.code.toNat ≤ 96 := by
    rcases ho with ⟨h1, rfl⟩ | ⟨k, h1, h2, rfl, rfl⟩
    · have := (po_code d).1; unfold po at this; exact Nat.le_trans this (by decide)
    · show (UInt8.ofNat (80 + k)).toNat ≤ 96; simp; omega
  have hcnt : counted e op t = t := by
    unfold counted
    rw [if_neg]
    simp only [Bool.and_eq_true, decide_eq_true_eq]
    omega
  unfold step at h
  rw [hcnt] at h
  split at h
  · cases h
  · split at h
    · cases h
    · dsimp only at h
      split at h
      · cases h
      · split at h
        · cases h
        · rw [hx] at h
          simp only [List.all_nil, Bool.true_or, if_true, hex, Option.bind_eq_bind, Option.bind_some] at h
          split at h
          · cases h
          · cases h
            exact ⟨hx, rfl⟩

theorem step_lock {e : Env} {i : Nat} {l : Lock} {d : Bytes} {st : List Bytes} {t t' : State} (ha : l.active e.flags = true) (hx : t.exec = []) (hs : t.stack = d :: st)
    (h : step e i { code := l.code } t = some t') : l.open_ d e.locktime e.sequence e.version := by
  have hce : ∀ op, (counted e op t).exec = [] ∧ (counted e op t).stack = d :: st := fun op => by
    unfold counted; split <;> exact ⟨hx, hs⟩
  obtain ⟨c1, c2⟩ := hce { code := l.code }
  unfold step at h
  split at h
  · cases h
  · split at h
    · cases h
    · dsimp only at h
      generalize counted e { code := l.code } t = u at c1 c2 h
      split at h
      · cases h
      · split at h
        · cases h
        · rw [c1] at h
          simp only [List.all_nil, Bool.true_or, if_true, Option.bind_eq_bind] at h
          cases l with
          | absolute =>
            have : execute e i { code := Lock.code .absolute } u = if !e.flags.bip65 || lockTimeOk e u.stack then some u else none := rfl
            rw [this, c2, show e.flags.bip65 = true from ha] at h
            simp only [Bool.not_true, Bool.false_or] at h
            by_cases hok : lockTimeOk e (d :: st) = true
            · exact (absolute_iff e d st).1 hok
            · rw [if_neg hok] at h; cases h
          | relative =>
            have : execute e i { code := Lock.code .relative } u = if !e.flags.bip112 || sequenceOk e u.stack then some u else none := rfl
            rw [this, c2, show e.flags.bip112 = true from ha] at h
            simp only [Bool.not_true, Bool.false_or] at h
            by_cases hok : sequenceOk e (d :: st) = true
            · exact (relative_iff e d st).1 hok
            · rw [if_neg hok] at h; cases h

/-- A script that starts with a lock is only evaluated if the lock is open. -/
theorem eval_lock {e : Env} {l : Lock} {d : Bytes} (ho : Starts l d e.ops) (ha : l.active e.flags = true) {st : List Bytes} {b : Nat} {t : State}
    (h : eval e (start st b) = .done t) : l.open_ d e.locktime e.sequence e.version := by
  obtain ⟨op, rest, h1, h2⟩ := ho
  unfold eval at h
  split at h
  · cases h
  · split at h
    · cases h
    · split at h
      · cases h
      · split at h
        · cases h
        · split at h
          · cases h
          · rename_i t1 ht1
            rw [h2] at ht1
            simp only [steps, Option.bind_eq_bind] at ht1
            cases hs1 : step e 0 op (start st b) with
            | none => rw [hs1] at ht1; cases ht1
            | some t2 =>
              rw [hs1] at ht1
              simp only [Option.bind_some] at ht1
              obtain ⟨a1, a2⟩ := step_loads h1 (by rfl) hs1
              cases hs2 : step e (0 + 1) { code := l.code } t2 with
              | none => rw [hs2] at ht1; cases ht1
              | some t3 => exact step_lock ha a1 a2 hs2

/-! ### Outputs held by a lock -/

/-- **C103.** Whatever the input: an output whose script starts with a lock is spent only if the lock is open. -/
theorem C103_bare (s : Spend) (hs : s.OK) (l : Lock) (d : Bytes) (ha : l.active s.flags = true) (hp : Starts l d s.prevout) (hc : connect s = some none) :
    l.open_ d s.locktime s.sequence s.version := by
  have hv := C52_accepted_is_valid s hs hc
  unfold verify at hv
  split at hv
  · split at hv
    · rename_i t1 _ t2 he2
      exact eval_lock (e := s.legacyEnv s.prevout) hp (by cases l <;> exact ha) he2
    · cases hv
  · cases hv

/-- Of the hash of a script that starts with a lock, likewise, or there is another script of that hash. -/
theorem C103_p2sh (s : Spend) (hs : s.OK) (h16 : s.flags.bip16 = true) (l : Lock) (d : Bytes) (ha : l.active s.flags = true) (r : Bytes)
    (hr : Starts l d (parseOps r)) (hp : opsData s.prevout = p2sh (s.hash160 r)) (hc : connect s = some none) :
    l.open_ d s.locktime s.sequence s.version ∨ ∃ r', r' ≠ r ∧ s.hash160 r' = s.hash160 r := by
  obtain ⟨r', _, h2, rest, t, he, _⟩ := C82_p2sh_needs_redeem s hs h16 (s.hash160 r) (hs.hash160 r) hp hc
  by_cases hrr : r' = r
  · subst hrr
    exact .inl (eval_lock (e := s.legacyEnv (parseOps r')) hr (by cases l <;> exact ha) he)
  · exact .inr ⟨r', hrr, h2⟩

theorem C103_p2wsh (s : Spend) (hs : s.OK) (h141 : s.flags.bip141 = true) (l : Lock) (d : Bytes) (ha : l.active s.flags = true) (r : Bytes)
    (hr : Starts l d (parseOps r)) (hp : opsData s.prevout = p2wsh (s.sha256 r)) (hc : connect s = some none) :
    l.open_ d s.locktime s.sequence s.version ∨ ∃ r', r' ≠ r ∧ s.sha256 r' = s.sha256 r := by
  obtain ⟨_, st, r', t, _, h2, he, _⟩ := C82_p2wsh_needs_script s hs h141 (s.sha256 r) (hs.sha256 r) hp hc
  by_cases hrr : r' = r
  · subst hrr
    exact .inl (eval_lock (e := s.segwitEnv (parseOps r') st) hr (by cases l <;> exact ha) he)
  · exact .inr ⟨r', hrr, h2⟩

/-- In a leaf of a taproot output: a spend by such a script needs an open lock (if the script has no OP_SUCCESS). -/
theorem C103_tapscript (s : Spend) (hs : s.OK) (h141 : s.flags.bip141 = true) (h341 : s.flags.bip341 = true) (l : Lock) (d : Bytes)
    (ha : l.active s.flags = true) (r : Bytes) (hr : Starts l d (parseOps r)) (hn : ∀ o ∈ parseOps r, successCode o.code.toNat = false)
    {p : Bytes} (hp : p.length = 32) (ho : opsData s.prevout = p2tr p) {args : List Bytes} {control : Bytes}
    (hw : withoutAnnex s.witness = args ++ [r, control]) (hv : control.headD 0 &&& 0xfe = 0xc0) (hc : connect s = some none) :
    l.open_ d s.locktime s.sequence s.version := by
  obtain ⟨_, _, _, _, _, _, ht⟩ := (script_path hs h141 h341 hp ho hw).1 hc
  have ht := ht hv
  unfold TapscriptTrue at ht
  split at ht
  · rename_i t he
    exact eval_lock (e := s.taprootEnv (parseOps r) args _) hr (by cases l <;> exact ha) he
  · rename_i he
    exfalso
    unfold eval at he
    split at he
    · rename_i hg
      simp only [Bool.and_eq_true, List.any_eq_true, Bool.not_eq_true'] at hg
      obtain ⟨_, o, ho', _, h3⟩ := hg
      rw [hn o ho'] at h3
      cases h3
    · split at he
      · cases he
      · split at he
        · cases he
        · split at he
          · cases he
          · split at he
            · cases he
            · split at he <;> cases he
  · cases ht

theorem loads_pushes {op : Op} {d : Bytes} (h : Loads op d) : Pushes op d := by
  rcases h with ⟨h1, rfl⟩ | ⟨k, h1, h2, rfl, rfl⟩
  · exact po_pushes h1
  · exact small_pushes h1 h2

theorem lock_shape {l : Lock} {op : Op} {d : Bytes} (h : Loads op d) :
    ¬ IsP2SH (opsData [op, { code := l.code }]) ∧ program? (opsData [op, { code := l.code }]) = none ∧ (opsData [op, { code := l.code }]).length ≤ 10000 := by
  have hcode : op.code.toNat ≤ 96 := by
    rcases h with ⟨h1, rfl⟩ | ⟨k, h1, h2, rfl, rfl⟩
    · have := (po_code d).1; unfold po at this; exact Nat.le_trans this (by decide)
    · show (UInt8.ofNat (80 + k)).toNat ≤ 96; simp; omega
  have hl : ({ code := l.code } : Op).toData = [l.code] := by cases l <;> rfl
  have hd : opsData [op, { code := l.code }] = op.toData ++ [l.code] := by simp [opsData, hl]
  have hlast : l.code ≠ 0x87 := by cases l <;> decide
  refine ⟨?_, ?_, ?_⟩
  · rintro ⟨h', _, he⟩
    rw [hd] at he
    have := (List.append_inj' he rfl).2
    simp at this
    exact hlast this
  · rw [hd]
    rcases h with ⟨h1, rfl⟩ | ⟨k, h1, h2, rfl, rfl⟩
    · have hp := (po_spec h1).2
      unfold po at hp
      rw [hp]
      unfold pushBytes program?
      dsimp only
      by_cases c1 : d.length ≤ 75
      · rw [if_pos c1]
        have hb : (UInt8.ofNat d.length).toNat = d.length := by simp; omega
        cases d with
        | nil => cases l <;> rfl
        | cons x xs =>
          simp only [List.cons_append, List.nil_append]
          have n0 : ¬ UInt8.ofNat (x :: xs).length = 0 := fun hh => by
            have := congrArg UInt8.toNat hh
            rw [hb] at this
            simp at this
          rw [if_neg n0, hb, if_neg (show ¬ (81 ≤ (x :: xs).length ∧ (x :: xs).length ≤ 96) by omega)]
          simp
      · rw [if_neg c1]
        by_cases c2 : d.length ≤ 255
        · rw [if_pos c2]; simp
        · rw [if_neg c2]
          by_cases c3 : d.length ≤ 65535
          · rw [if_pos c3]; simp [leBytes]
          · rw [if_neg c3]; simp [leBytes]
    · have : ({ code := UInt8.ofNat (80 + k) } : Op).toData = [UInt8.ofNat (80 + k)] := by
        have : ∀ j : Fin 17, 1 ≤ j.1 → ({ code := UInt8.ofNat (80 + j.1) } : Op).toData = [UInt8.ofNat (80 + j.1)] := by decide
        exact this ⟨k, by omega⟩ h1
      rw [this]
      unfold program?
      cases l <;> simp [Lock.code]
  · rw [hd, List.length_append]
    rcases h with ⟨h1, rfl⟩ | ⟨k, h1, h2, rfl, rfl⟩
    · have hp := (po_spec h1).2
      unfold po at hp
      rw [hp]
      have := pushBytes_length d h1
      simp only [List.length_singleton]
      omega
    · have : ({ code := UInt8.ofNat (80 + k) } : Op).toData.length ≤ 1 := by
        have : ∀ j : Fin 17, 1 ≤ j.1 → ({ code := UInt8.ofNat (80 + j.1) } : Op).toData.length ≤ 1 := by decide
        exact this ⟨k, by omega⟩ h1
      simp only [List.length_singleton]
      omega

/-- Exactly so: the output that is just the lock is spent by an empty input exactly if the lock is open (when it is active) and the number is not zero. -/
theorem C103_exact (s : Spend) (hs : s.OK) (l : Lock) (op : Op) (d : Bytes) (hd : Loads op d) (hp : s.prevout = [op, { code := l.code }]) (ho : s.ops = []) :
    connect s = some none ↔ s.witness = [] ∧ (l.active s.flags = true → l.open_ d s.locktime s.sequence s.version) ∧ scriptNum d ≠ 0 := by
  obtain ⟨h1, h2, h3⟩ := lock_shape (l := l) hd
  have hord : s.Ordinary := bare_ordinary (by rw [ho]; intro o h; cases h) (by
    rw [hp]
    intro o h
    simp only [List.dropLast, List.mem_cons, List.not_mem_nil, or_false] at h
    subst h
    rcases hd with ⟨_, rfl⟩ | ⟨k, k1, k2, rfl, rfl⟩
    · intro hh
      have := (po_code d).1
      unfold po at this
      dsimp only at this hh
      rw [hh] at this
      revert this; decide
    · have : ∀ j : Fin 17, UInt8.ofNat (80 + j.1) ≠ 174 := by decide
      exact this ⟨k, by omega⟩) (by rw [hp]; exact h1) (by rw [hp]; exact h2)
  rw [C52_exact_ordinary s hs hord, verify_bare (by rw [hp]; exact h1) (by rw [hp]; exact h2), ho, hp]
  refine and_congr_right fun _ => ?_
  classical
  have e1 : eval (s.legacyEnv []) (start [] 0) = .done (start [] 0) := by
    rw [eval_steps (e := s.legacyEnv []) rfl legacy_witness_ok (by show (opsData []).length ≤ _; decide)]
    rfl
  have e2 : eval (s.legacyEnv [op, { code := l.code }]) (start [] 0) =
      if l.active s.flags = true → l.open_ d s.locktime s.sequence s.version then Verdict.done { start [d] 0 with nops := 1 } else Verdict.fail := by
    rw [eval_steps (e := s.legacyEnv [op, { code := l.code }]) rfl legacy_witness_ok h3]
    show (match steps _ 0 [op, { code := l.code }] _ with | none => _ | some t' => _) = _
    simp only [steps, Option.bind_eq_bind]
    rw [loads_pushes hd _ _ _ rfl rfl (by simp [start]), if_neg (by simp [start])]
    simp only [Option.bind_some]
    rw [step_of rfl rfl (by simp) (by cases l <;> decide) rfl]
    rw [if_neg (by unfold counted; split <;> simp [start])]
    have hcnt : counted (s.legacyEnv [op, { code := l.code }]) { code := l.code } { start [] 0 with stack := d :: (start [] 0).stack } = { start [d] 0 with nops := 1 } := by
      cases l <;> rfl
    rw [hcnt]
    cases l with
    | absolute =>
      have : execute (s.legacyEnv [op, { code := Lock.code .absolute }]) (0 + 1) { code := Lock.code .absolute } { start [d] 0 with nops := 1 } =
        if !s.flags.bip65 || lockTimeOk (s.legacyEnv [op, { code := Lock.code .absolute }]) [d] then some { start [d] 0 with nops := 1 } else none := rfl
      rw [this]
      have hx := absolute_iff (s.legacyEnv [op, { code := Lock.code .absolute }]) d []
      by_cases ha : s.flags.bip65 = true
      · by_cases hk : Absolute d s.locktime s.sequence
        · rw [if_pos (show Lock.active s.flags .absolute = true → Lock.open_ d s.locktime s.sequence s.version .absolute from fun _ => hk), if_pos (by rw [hx.2 hk]; simp)]
          rfl
        · rw [if_neg (show ¬ (Lock.active s.flags .absolute = true → Lock.open_ d s.locktime s.sequence s.version .absolute) from fun h => hk (h ha)), if_neg (by rw [ha]; simpa using fun h => hk (hx.1 h))]
          rfl
      · rw [if_pos (show Lock.active s.flags .absolute = true → Lock.open_ d s.locktime s.sequence s.version .absolute from fun h => absurd h ha), if_pos (by simp [ha])]
        rfl
    | relative =>
      have : execute (s.legacyEnv [op, { code := Lock.code .relative }]) (0 + 1) { code := Lock.code .relative } { start [d] 0 with nops := 1 } =
        if !s.flags.bip112 || sequenceOk (s.legacyEnv [op, { code := Lock.code .relative }]) [d] then some { start [d] 0 with nops := 1 } else none := rfl
      rw [this]
      have hx := relative_iff (s.legacyEnv [op, { code := Lock.code .relative }]) d []
      by_cases ha : s.flags.bip112 = true
      · by_cases hk : Relative d s.version s.sequence
        · rw [if_pos (show Lock.active s.flags .relative = true → Lock.open_ d s.locktime s.sequence s.version .relative from fun _ => hk), if_pos (by rw [hx.2 hk]; simp)]
          rfl
        · rw [if_neg (show ¬ (Lock.active s.flags .relative = true → Lock.open_ d s.locktime s.sequence s.version .relative) from fun h => hk (h ha)), if_neg (by rw [ha]; simpa using fun h => hk (hx.1 h))]
          rfl
      · rw [if_pos (show Lock.active s.flags .relative = true → Lock.open_ d s.locktime s.sequence s.version .relative from fun h => absurd h ha), if_pos (by simp [ha])]
        rfl
  constructor
  · rintro ⟨t1, t2, he1, he2, hac⟩
    rw [e1] at he1
    cases he1
    have he2 : eval (s.legacyEnv [op, { code := l.code }]) (start [] 0) = .done t2 := he2
    rw [e2] at he2
    split at he2
    · rename_i hk
      cases he2
      refine ⟨hk, ?_⟩
      have : truthy d = true := hac
      unfold truthy at this
      simpa using this
    · cases he2
  · rintro ⟨hk, hn⟩
    refine ⟨_, { start [d] 0 with nops := 1 }, e1, ?_, ?_⟩
    · show eval (s.legacyEnv [op, { code := l.code }]) (start [] 0) = _
      rw [e2, if_pos hk]
    · show truthy d = true
      unfold truthy
      simpa using hn

variable {P : Type} [AddCommGroup P] {C : Curve P}

/-- The lock is compared with the lock time, the version and the sequence of the spending transaction and input. -/
theorem C103_transaction (L : Ecdsa C) (K : Sign.Crypto) (flags : Machine.Flags) (t : Tx) (ps : List Sighash.Prevout) (i : Nat) (inp : Input) (prev : Output) (c : Sighash.Cache)
    (hs : (Sign.txSpend C L K flags t ps i inp prev c).OK) (l : Lock) (d : Bytes) (ha : l.active flags = true) (hp : Starts l d prev.script.ops)
    (hc : connect (Sign.txSpend C L K flags t ps i inp prev c) = some none) :
    l.open_ d t.locktime.toNat inp.sequence.toNat t.version.toNat :=
  C103_bare _ hs l d ha hp hc

/-! ### Concrete cases -/

def heldSpend (l : Lock) (d : Bytes) (locktime sequence version : Nat) : Spend :=
  { toySpend { bip65 := true, bip112 := true } [] [po d, { code := l.code }] [] with locktime := locktime, sequence := sequence, version := version }

theorem heldSpend_ok (l : Lock) (d : Bytes) (hd : d.length ≤ 520) (locktime sequence version : Nat) : (heldSpend l d locktime sequence version).OK := by
  have h := toySpend_ok { bip65 := true, bip112 := true } [] [po d, { code := l.code }] [] rfl (by intro o h; cases h) (by
    intro o h
    simp only [List.mem_cons, List.not_mem_nil, or_false] at h
    rcases h with rfl | rfl
    · exact (po_spec hd).1
    · exact plain_consistent _ (by cases l <;> decide)) (by decide) (Nat.lt_of_le_of_lt (lock_shape (l := l) (.inl ⟨hd, rfl⟩)).2.2 (by decide)) (by decide)
  exact ⟨h.ops, h.opsSize, h.prevout, h.prevoutSize, h.witness, h.rmd160, h.sha1, h.sha256, h.hash160, h.hash256, h.total, h.tap⟩

/-- An output held until height 500: spent at 600, not at 400. -/
example : connect (heldSpend .absolute [0xf4, 0x01] 600 0 1) = some none ∧ connect (heldSpend .absolute [0xf4, 0x01] 400 0 1) ≠ some none := by
  have n : scriptNum [0xf4, 0x01] = 500 := by decide
  constructor
  · rw [C103_exact _ (heldSpend_ok _ _ (by decide) _ _ _) .absolute _ [0xf4, 0x01] (.inl ⟨by decide, rfl⟩) rfl rfl]
    exact ⟨rfl, fun _ => ⟨by decide, 500, n, by decide, by decide, by decide⟩, by rw [n]; decide⟩
  · rw [Ne, C103_exact _ (heldSpend_ok _ _ (by decide) _ _ _) .absolute _ [0xf4, 0x01] (.inl ⟨by decide, rfl⟩) rfl rfl]
    rintro ⟨_, h, _⟩
    obtain ⟨_, k, h1, _, h2, _⟩ := h rfl
    rw [n] at h1
    have h2 : k ≤ 400 := h2
    omega
/-- An output held for 144 blocks. -/
example : connect (heldSpend .relative [0x90, 0x00] 0 144 2) = some none := by
  rw [C103_exact _ (heldSpend_ok _ _ (by decide) _ _ _) .relative _ [0x90, 0x00] (.inl ⟨by decide, rfl⟩) rfl rfl]
  exact ⟨rfl, fun _ => ⟨by decide, 144, by decide, .inr ⟨by decide, by decide, by decide, by decide⟩⟩, by decide⟩

end Verif
