import Verif.Spec.Registry
import Mathlib.Data.List.Nodup
/-! # C79: captured signatures under any schedule -/
namespace Verif.Registry
variable {α : Type}

/-- Between taking and releasing the mutex. -/
def Place.Holds : Place α → Prop
  | .locked .. | .pushing .. | .pushed .. | .purging _ | .purged => True
  | _ => False

/-- Which accumulator is being registered. -/
def Place.enters : Place α → Option Kind
  | .wantLock k _ | .locked k _ | .pushing k _ _ | .pushed k _ => some k
  | _ => none

theorem pending_snoc (t k) (h : List (Event α)) (e) : pending t k (h ++ [e]) = (match e with
    | .appended u j row => if u = t ∧ j = k then pending t k h ++ [row] else pending t k h
    | .cleared u j => if u = t ∧ j = k then [] else pending t k h
    | .released u j => if u = t ∧ j = k then [] else pending t k h
    | .took .. => pending t k h) := by
  unfold pending
  rw [List.foldl_append]
  rfl

/-- What holds in every reachable state. -/
structure Inv (s : State α) : Prop where
  mutex : ∀ t, (s.place t).Holds ↔ s.mutex = some t
  snapshot : ∀ t k a l, s.place t = .pushing k a l → l = s.pointers k
  nodup : ∀ k, (s.pointers k).Nodup
  member : ∀ t k, t ∈ s.pointers k ↔ s.once t k = true ∨ ∃ a, s.place t = .pushed k a
  using_ : ∀ t k a, s.place t = .using k a → s.once t k = true
  first : ∀ t k, (s.place t).enters = some k → s.once t k = false
  empty : ∀ t k, s.once t k = false → s.rows t k = []
  rows : ∀ t k, s.rows t k = pending t k s.history
  took : ∀ h t k l h', s.history = h ++ .took t k l :: h' → l = pending t k h

theorem Inv.initial : Inv (State.initial α) := by
  constructor <;> intros <;> simp_all [State.initial, Place.Holds, Place.enters, pending]

theorem snoc_split {β : Type} {h h' l : List β} {e x : β} (H : l ++ [e] = h ++ x :: h') : (h' = [] ∧ h = l ∧ x = e) ∨ ∃ m, h' = m ++ [e] ∧ l = h ++ x :: m := by
  rcases List.eq_nil_or_concat h' with rfl | ⟨m, y, rfl⟩
  · have := List.append_inj' H rfl
    exact .inl ⟨rfl, this.1.symm, by simpa using this.2.symm⟩
  · right
    rw [List.concat_eq_append, ← List.cons_append, ← List.append_assoc] at H
    have := List.append_inj' H rfl
    refine ⟨m, ?_, this.1⟩
    rw [List.concat_eq_append]
    have h2 := this.2
    simp at h2
    rw [h2]

/-- A move that changes only where a thread is. -/
theorem Inv.move {s : State α} (I : Inv s) (t : Thread) (p : Place α) (h1 : p.Holds ↔ (s.place t).Holds) (h2 : ∀ k a l, p = .pushing k a l → l = s.pointers k)
    (h3 : ∀ k, (∃ a, p = .pushed k a) ↔ ∃ a, s.place t = .pushed k a) (h4 : ∀ k a, p = .using k a → s.once t k = true)
    (h5 : ∀ k, p.enters = some k → s.once t k = false) : Inv (s.at t p) := by
  obtain ⟨i1, i2, i3, i4, i5, i6, i7, i8, i9⟩ := I
  refine ⟨?_, ?_, i3, ?_, ?_, ?_, i7, i8, i9⟩
  · intro u
    by_cases hu : u = t
    · subst hu; simp only [State.at, Function.update_self]; rw [h1]; exact i1 u
    · simp only [State.at, Function.update_of_ne hu]; exact i1 u
  · intro u k a l
    by_cases hu : u = t
    · subst hu; simp only [State.at, Function.update_self]; exact h2 k a l
    · simp only [State.at, Function.update_of_ne hu]; exact i2 u k a l
  · intro u k
    by_cases hu : u = t
    · subst hu; simp only [State.at, Function.update_self]; rw [h3]; exact i4 u k
    · simp only [State.at, Function.update_of_ne hu]; exact i4 u k
  · intro u k a
    by_cases hu : u = t
    · subst hu; simp only [State.at, Function.update_self]; exact h4 k a
    · simp only [State.at, Function.update_of_ne hu]; exact i5 u k a
  · intro u k
    by_cases hu : u = t
    · subst hu; simp only [State.at, Function.update_self]; exact h5 k
    · simp only [State.at, Function.update_of_ne hu]; exact i6 u k

theorem Inv.finish {s : State α} (I : Inv s) (t k) (a : Action α) (h : s.place t = .using k a) : Inv (finish s t k a) := by
  have J := I.move t .idle (by simp [Place.Holds, h]) (by simp) (by simp [h]) (by simp) (by simp [Place.enters])
  have ho := I.using_ t k a h
  obtain ⟨i1, i2, i3, i4, i5, i6, i7, i8, i9⟩ := J
  cases a with
  | append row =>
    refine ⟨i1, i2, i3, i4, i5, i6, ?_, ?_, ?_⟩
    · intro u j hf
      have hn : ¬ (u = t ∧ j = k) := by rintro ⟨rfl, rfl⟩; simp [Verif.Registry.finish, State.log, State.at, State.store, ho] at hf
      have : (Verif.Registry.finish s t k (.append row)).rows u j = s.rows u j := by
        simp only [Verif.Registry.finish, State.log, State.at, State.store, Function.update_apply]
        by_cases hu : u = t
        · subst hu
          rw [if_pos rfl, Function.update_of_ne (fun e => hn ⟨rfl, e⟩)]
        · rw [if_neg hu]
      rw [this]
      exact I.empty u j hf
    · intro u j
      simp only [Verif.Registry.finish, State.log, State.at, State.store, Function.update_apply]
      rw [pending_snoc]
      by_cases hu : u = t
      · subst hu
        by_cases hj : j = k
        · subst hj; simp [I.rows]
        · simp [hj, Ne.symm hj, I.rows, eq_comm]
      · simp [hu, Ne.symm hu, I.rows]
    · intro h1 u j l h2 H
      rcases snoc_split H with ⟨-, -, e⟩ | ⟨m, -, e⟩
      · cases e
      · exact I.took _ _ _ _ _ e
  | clear =>
    refine ⟨i1, i2, i3, i4, i5, i6, ?_, ?_, ?_⟩
    · intro u j hf
      simp only [Verif.Registry.finish, State.log, State.at, State.store, Function.update_apply]
      by_cases hu : u = t
      · subst hu
        by_cases hj : j = k
        · simp [hj]
        · rw [if_pos rfl, Function.update_of_ne hj]; exact I.empty u j hf
      · rw [if_neg hu]; exact I.empty u j hf
    · intro u j
      simp only [Verif.Registry.finish, State.log, State.at, State.store, Function.update_apply]
      rw [pending_snoc]
      by_cases hu : u = t
      · subst hu
        by_cases hj : j = k
        · subst hj; simp
        · simp [hj, Ne.symm hj, I.rows, eq_comm]
      · simp [hu, Ne.symm hu, I.rows]
    · intro h1 u j l h2 H
      rcases snoc_split H with ⟨-, -, e⟩ | ⟨m, -, e⟩
      · cases e
      · exact I.took _ _ _ _ _ e
  | take =>
    refine ⟨i1, i2, i3, i4, i5, i6, i7, ?_, ?_⟩
    · intro u j
      simp only [Verif.Registry.finish, State.log, State.at]
      rw [pending_snoc]
      exact I.rows u j
    · intro h1 u j l h2 H
      rcases snoc_split H with ⟨-, rfl, e⟩ | ⟨m, -, e⟩
      · injection e with e1 e2 e3
        subst e1 e2 e3
        exact I.rows _ _
      · exact I.took _ _ _ _ _ e

theorem Inv.release {s : State α} (I : Inv s) (t n k u) (h : s.place t = .purging n) :
    Inv (((s.store u k []).at t (.purging (n + 1))).log (.released u k)) := by
  have J := I.move t (.purging (n + 1)) (by simp [Place.Holds, h]) (by simp) (by simp [h]) (by simp) (by simp [Place.enters])
  obtain ⟨i1, i2, i3, i4, i5, i6, i7, i8, i9⟩ := J
  refine ⟨i1, i2, i3, i4, i5, i6, ?_, ?_, ?_⟩
  · intro v j hf
    simp only [State.log, State.at, State.store, Function.update_apply]
    by_cases hu : v = u
    · subst hu
      by_cases hj : j = k
      · simp [hj]
      · rw [if_pos rfl, Function.update_of_ne hj]; exact I.empty v j hf
    · rw [if_neg hu]; exact I.empty v j hf
  · intro v j
    simp only [State.log, State.at, State.store, Function.update_apply]
    rw [pending_snoc]
    by_cases hu : v = u
    · subst hu
      by_cases hj : j = k
      · subst hj; simp
      · simp [hj, Ne.symm hj, I.rows, eq_comm]
    · simp [hu, Ne.symm hu, I.rows]
  · intro h1 v j l h2 H
    rcases snoc_split H with ⟨-, -, e⟩ | ⟨m, -, e⟩
    · cases e
    · exact I.took _ _ _ _ _ e

/-- Taking the mutex. -/
theorem Inv.take {s : State α} (I : Inv s) (t : Thread) (p : Place α) (hm : s.mutex = none) (h1 : p.Holds) (h2 : ∀ k a l, p ≠ .pushing k a l)
    (h3 : ∀ k a, p ≠ .pushed k a) (h4 : ∀ k a, p ≠ .using k a) (h5 : ∀ k, p.enters = some k → s.once t k = false) :
    Inv { s.at t p with mutex := some t } := by
  have hn : ∀ u, ¬ (s.place u).Holds := fun u hu => by have := (I.mutex u).1 hu; rw [hm] at this; cases this
  obtain ⟨i1, i2, i3, i4, i5, i6, i7, i8, i9⟩ := I
  refine ⟨?_, ?_, i3, ?_, ?_, ?_, i7, i8, i9⟩
  · intro u
    by_cases hu : u = t
    · subst hu; simp only [State.at, Function.update_self]; exact ⟨fun _ => trivial, fun _ => h1⟩
    · simp only [State.at, Function.update_of_ne hu]
      exact ⟨fun h => absurd h (hn u), fun e => absurd (Option.some.inj e).symm hu⟩
  · intro u k a l
    by_cases hu : u = t
    · subst hu; simp only [State.at, Function.update_self]; exact fun e => absurd e (h2 k a l)
    · simp only [State.at, Function.update_of_ne hu]; exact i2 u k a l
  · intro u k
    by_cases hu : u = t
    · subst hu
      simp only [State.at, Function.update_self]
      rw [i4 u k]
      constructor
      · rintro (h | ⟨a, h⟩)
        · exact .inl h
        · exact absurd (show (s.place u).Holds by rw [h]; trivial) (hn u)
      · rintro (h | ⟨a, h⟩)
        · exact .inl h
        · exact absurd h (h3 k a)
    · simp only [State.at, Function.update_of_ne hu]; exact i4 u k
  · intro u k a
    by_cases hu : u = t
    · subst hu; simp only [State.at, Function.update_self]; exact fun e => absurd e (h4 k a)
    · simp only [State.at, Function.update_of_ne hu]; exact i5 u k a
  · intro u k
    by_cases hu : u = t
    · subst hu; simp only [State.at, Function.update_self]; exact h5 k
    · simp only [State.at, Function.update_of_ne hu]; exact i6 u k

theorem Inv.alone {s : State α} (I : Inv s) {t u : Thread} (h : (s.place t).Holds) (h' : (s.place u).Holds) : u = t := by
  have h1 := (I.mutex t).1 h
  have h2 := (I.mutex u).1 h'
  rw [h1] at h2
  exact (Option.some.inj h2).symm

theorem Inv.write {s : State α} (I : Inv s) (t k a l) (h : s.place t = .pushing k a l) :
    Inv { s.at t (.pushed k a) with pointers := Function.update s.pointers k (l ++ [t]) } := by
  have hl := I.snapshot t k a l h
  have hh : (s.place t).Holds := by rw [h]; trivial
  have ho := I.first t k (by rw [h]; rfl)
  have hnm : t ∉ s.pointers k := by
    rw [I.member, ho, h]
    rintro (h | ⟨a, h⟩) <;> cases h
  have alone : ∀ u, (s.place u).Holds → u = t := fun u hu => I.alone hh hu
  obtain ⟨i1, i2, i3, i4, i5, i6, i7, i8, i9⟩ := I
  subst hl
  refine ⟨?_, ?_, ?_, ?_, ?_, ?_, i7, i8, i9⟩
  · intro u
    by_cases hu : u = t
    · subst hu; simp only [State.at, Function.update_self]; rw [← i1 u, h]; exact ⟨fun _ => trivial, fun _ => trivial⟩
    · simp only [State.at, Function.update_of_ne hu]; exact i1 u
  · intro u j b m
    by_cases hu : u = t
    · subst hu; simp only [State.at, Function.update_self]; exact fun e => by cases e
    · simp only [State.at, Function.update_of_ne hu]
      intro e
      exact absurd (alone u (by rw [e]; trivial)) hu
  · intro j
    by_cases hj : j = k
    · subst hj
      simp only [State.at, Function.update_self]
      rw [List.nodup_append]
      refine ⟨i3 j, List.nodup_singleton t, ?_⟩
      intro x hx y hy e
      rw [List.mem_singleton] at hy
      subst hy e
      exact hnm hx
    · simp only [State.at, Function.update_of_ne hj]; exact i3 j
  · intro u j
    by_cases hu : u = t
    · subst hu
      simp only [State.at, Function.update_self]
      by_cases hj : j = k
      · subst hj
        rw [Function.update_self, ho]
        simp
      · rw [Function.update_of_ne hj, i4 u j, h]
        constructor
        · rintro (e | ⟨b, e⟩)
          · exact .inl e
          · cases e
        · rintro (e | ⟨b, e⟩)
          · exact .inl e
          · injection e with e1 e2; exact absurd e1.symm hj
    · simp only [State.at, Function.update_of_ne hu]
      by_cases hj : j = k
      · subst hj
        rw [Function.update_self, List.mem_append, List.mem_singleton]
        simp only [hu, or_false]
        exact i4 u j
      · rw [Function.update_of_ne hj]; exact i4 u j
  · intro u j b
    by_cases hu : u = t
    · subst hu; simp only [State.at, Function.update_self]; exact fun e => by cases e
    · simp only [State.at, Function.update_of_ne hu]; exact i5 u j b
  · intro u j
    by_cases hu : u = t
    · subst hu
      simp only [State.at, Function.update_self]
      intro e
      rw [Place.enters] at e
      injection e with e
      subst e
      exact ho
    · simp only [State.at, Function.update_of_ne hu]; exact i6 u j

theorem Inv.unlock {s : State α} (I : Inv s) (t k a) (h : s.place t = .pushed k a) :
    Inv { s.at t (.using k a) with mutex := none, once := Function.update s.once t (Function.update (s.once t) k true) } := by
  have hh : (s.place t).Holds := by rw [h]; trivial
  have alone : ∀ u, (s.place u).Holds → u = t := fun u hu => I.alone hh hu
  obtain ⟨i1, i2, i3, i4, i5, i6, i7, i8, i9⟩ := I
  refine ⟨?_, ?_, i3, ?_, ?_, ?_, ?_, i8, i9⟩
  · intro u
    by_cases hu : u = t
    · subst hu; simp only [State.at, Function.update_self]; exact ⟨fun h => h.elim, fun e => by cases e⟩
    · simp only [State.at, Function.update_of_ne hu]
      exact ⟨fun h => absurd (alone u h) hu, fun e => by cases e⟩
  · intro u j b m
    by_cases hu : u = t
    · subst hu; simp only [State.at, Function.update_self]; exact fun e => by cases e
    · simp only [State.at, Function.update_of_ne hu]; exact i2 u j b m
  · intro u j
    by_cases hu : u = t
    · subst hu
      simp only [State.at, Function.update_self]
      rw [i4 u j, h]
      by_cases hj : j = k
      · subst hj; simp
      · rw [Function.update_of_ne hj]
        constructor
        · rintro (e | ⟨b, e⟩)
          · exact .inl e
          · injection e with e1 e2; exact absurd e1.symm hj
        · rintro (e | ⟨b, e⟩)
          · exact .inl e
          · cases e
    · simp only [State.at, Function.update_of_ne hu]; exact i4 u j
  · intro u j b
    by_cases hu : u = t
    · subst hu
      simp only [State.at, Function.update_self]
      intro e
      injection e with e1 e2
      subst e1
      rw [Function.update_self]
    · simp only [State.at, Function.update_of_ne hu]; exact i5 u j b
  · intro u j
    by_cases hu : u = t
    · subst hu; simp only [State.at, Function.update_self]; exact fun e => by cases e
    · simp only [State.at, Function.update_of_ne hu]; exact i6 u j
  · intro u j
    by_cases hu : u = t
    · subst hu
      simp only [State.at, Function.update_self]
      by_cases hj : j = k
      · subst hj; rw [Function.update_self]; exact fun e => by cases e
      · rw [Function.update_of_ne hj]; exact i7 u j
    · simp only [State.at, Function.update_of_ne hu]; exact i7 u j

theorem Inv.unlockPurge {s : State α} (I : Inv s) (t) (h : s.place t = .purged) : Inv { s.at t .idle with mutex := none } := by
  have hh : (s.place t).Holds := by rw [h]; trivial
  have alone : ∀ u, (s.place u).Holds → u = t := fun u hu => I.alone hh hu
  obtain ⟨i1, i2, i3, i4, i5, i6, i7, i8, i9⟩ := I
  refine ⟨?_, ?_, i3, ?_, ?_, ?_, i7, i8, i9⟩
  · intro u
    by_cases hu : u = t
    · subst hu; simp only [State.at, Function.update_self]; exact ⟨fun h => h.elim, fun e => by cases e⟩
    · simp only [State.at, Function.update_of_ne hu]
      exact ⟨fun h => absurd (alone u h) hu, fun e => by cases e⟩
  · intro u j b m
    by_cases hu : u = t
    · subst hu; simp only [State.at, Function.update_self]; exact fun e => by cases e
    · simp only [State.at, Function.update_of_ne hu]; exact i2 u j b m
  · intro u j
    by_cases hu : u = t
    · subst hu
      simp only [State.at, Function.update_self]
      rw [i4 u j, h]
      simp
    · simp only [State.at, Function.update_of_ne hu]; exact i4 u j
  · intro u j b
    by_cases hu : u = t
    · subst hu; simp only [State.at, Function.update_self]; exact fun e => by cases e
    · simp only [State.at, Function.update_of_ne hu]; exact i5 u j b
  · intro u j
    by_cases hu : u = t
    · subst hu; simp only [State.at, Function.update_self]; exact fun e => by cases e
    · simp only [State.at, Function.update_of_ne hu]; exact i6 u j

theorem Inv.step {s s' : State α} (I : Inv s) (h : Step s s') : Inv s' := by
  cases h with
  | call t k a h =>
    by_cases ho : s.once t k = true
    · rw [if_pos ho]
      exact I.move t _ (by simp [Place.Holds, h]) (by simp) (by simp [h]) (by rintro j b e; injection e with e1 e2; subst e1; exact ho) (by simp [Place.enters])
    · rw [if_neg ho]
      exact I.move t _ (by simp [Place.Holds, h]) (by simp) (by simp [h]) (by simp) (by rintro j e; rw [Place.enters] at e; injection e with e; subst e; simpa using ho)
  | lock t k a h hm =>
    exact I.take t _ hm trivial (by simp) (by simp) (by simp) (fun j e => I.first t j (by rw [h]; exact e))
  | read t k a h =>
    exact I.move t _ (by simp [Place.Holds, h]) (by rintro j b l e; injection e with e1 e2 e3; subst e1; exact e3.symm) (by simp [h]) (by simp)
      (fun j e => I.first t j (by rw [h]; exact e))
  | write t k a l h => exact I.write t k a l h
  | unlock t k a h => exact I.unlock t k a h
  | use t k a h => exact I.finish t k a h
  | purge t h => exact I.move t _ (by simp [Place.Holds, h]) (by simp) (by simp [h]) (by simp) (by simp [Place.enters])
  | lockPurge t h hm => exact I.take t _ hm trivial (by simp) (by simp) (by simp) (by simp [Place.enters])
  | release t n k u h hn => exact I.release t n k u h
  | finished t n h hn => exact I.move t _ (by simp [Place.Holds, h]) (by simp) (by simp [h]) (by simp) (by simp [Place.enters])
  | unlockPurge t h => exact I.unlockPurge t h
  | «end» t h => exact I.move t _ (by simp [Place.Holds, h]) (by simp) (by simp [h]) (by simp) (by simp [Place.enters])

theorem Run.inv {P : State α → Prop} {s : State α} (h : Run P s) : Inv s := by
  induction h with
  | start => exact Inv.initial
  | next _ hs _ ih => exact ih.step hs

theorem Run.holds {P : State α → Prop} {s : State α} (h : Run P s) : P s := by cases h <;> assumption

/-! ## Under any schedule -/

/-- **C79**: under every schedule of any number of threads, what a thread reads from its accumulator is what it appended since it last
cleared it (or it was released), in order: nothing of another thread, nothing lost, nothing twice. -/
theorem C79_isolation {P : State α → Prop} {s : State α} (h : Run P s) :
    (∀ before t k l after, s.history = before ++ .took t k l :: after → l = pending t k before) ∧ ∀ t k, s.rows t k = pending t k s.history :=
  ⟨h.inv.took, h.inv.rows⟩

/-- **C79**: under every schedule each thread that has used an accumulator is registered, once; no other is; and no two threads are at the
vector at the same time. -/
theorem C79_registered {P : State α → Prop} {s : State α} (h : Run P s) :
    (∀ k, (s.pointers k).Nodup) ∧ (∀ t k, s.rows t k ≠ [] → t ∈ s.pointers k) ∧ (∀ t k a, s.place t = .using k a → t ∈ s.pointers k) ∧
    (∀ t k, t ∈ s.pointers k → s.once t k = true ∨ ∃ a, s.place t = .pushed k a) ∧ ¬ Collides s := by
  have I := h.inv
  refine ⟨I.nodup, ?_, ?_, fun t k => (I.member t k).1, ?_⟩
  · intro t k hr
    rw [I.member]
    cases ho : s.once t k with
    | true => exact .inl rfl
    | false => exact absurd (I.empty t k ho) hr
  · intro t k a hp
    rw [I.member]
    exact .inl (I.using_ t k a hp)
  · rintro ⟨t, u, k, a, l, hne, ht, hu⟩
    refine hne (I.alone (t := u) (u := t) ?_ (by rw [ht]; trivial))
    rcases hu with ⟨j, b, m, hu⟩ | ⟨n, hu⟩ <;> rw [hu] <;> trivial

/-- **C79**: no schedule deadlocks: if a thread is in one of the functions then one of those in them can go on. -/
theorem C79_progress {P : State α → Prop} {s : State α} (h : Run P s) (hb : ∃ t, (s.place t).Busy) : ∃ t s', (s.place t).Busy ∧ Step s s' ∧ s'.place t ≠ s.place t := by
  have I := h.inv
  have upd : ∀ (t : Thread) (p : Place α), (s.at t p).place t = p := fun t p => Function.update_self ..
  cases hm : s.mutex with
  | some t =>
    have hh := (I.mutex t).2 hm
    cases hp : s.place t with
    | idle => rw [hp] at hh; exact hh.elim
    | wantLock k a => rw [hp] at hh; exact hh.elim
    | locked k a => exact ⟨t, _, by rw [hp]; exact .inl trivial, .read s t k a hp, by rw [upd, hp]; simp⟩
    | pushing k a l => exact ⟨t, _, by rw [hp]; exact .inl trivial, .write s t k a l hp, by show (s.at t _).place t ≠ _; rw [upd, hp]; simp⟩
    | pushed k a => exact ⟨t, _, by rw [hp]; exact .inl trivial, .unlock s t k a hp, by show (s.at t _).place t ≠ _; rw [upd, hp]; simp⟩
    | «using» k a => rw [hp] at hh; exact hh.elim
    | wantPurge => rw [hp] at hh; exact hh.elim
    | purging n =>
      cases ho : s.order[n]? with
      | none => exact ⟨t, _, by rw [hp]; exact .inr trivial, .finished s t n hp ho, by rw [upd, hp]; simp⟩
      | some e => exact ⟨t, _, by rw [hp]; exact .inr trivial, .release s t n e.1 e.2 hp ho, by
          show ((s.store e.2 e.1 []).at t _).place t ≠ _
          rw [hp]; simp [State.at]⟩
    | purged => exact ⟨t, _, by rw [hp]; exact .inr trivial, .unlockPurge s t hp, by show (s.at t _).place t ≠ _; rw [upd, hp]; simp⟩
    | ended => rw [hp] at hh; exact hh.elim
  | none =>
    obtain ⟨t, hb⟩ := hb
    have hn : ¬ (s.place t).Holds := fun hh => by have := (I.mutex t).1 hh; rw [hm] at this; cases this
    cases hp : s.place t with
    | idle => rw [hp] at hb; exact (hb.elim id id).elim
    | wantLock k a => exact ⟨t, _, by rw [hp]; exact .inl trivial, .lock s t k a hp hm, by show (s.at t _).place t ≠ _; rw [upd, hp]; simp⟩
    | locked k a => rw [hp] at hn; exact (hn trivial).elim
    | pushing k a l => rw [hp] at hn; exact (hn trivial).elim
    | pushed k a => rw [hp] at hn; exact (hn trivial).elim
    | «using» k a =>
      refine ⟨t, _, by rw [hp]; exact .inl trivial, .use s t k a hp, ?_⟩
      have : (finish s t k a).place t = .idle := by cases a <;> simp [finish, State.log, State.at]
      rw [this, hp]; simp
    | wantPurge => exact ⟨t, _, by rw [hp]; exact .inr trivial, .lockPurge s t hp hm, by show (s.at t _).place t ≠ _; rw [upd, hp]; simp⟩
    | purging n => rw [hp] at hn; exact (hn trivial).elim
    | purged => rw [hp] at hn; exact (hn trivial).elim
    | ended => rw [hp] at hb; exact (hb.elim id id).elim

/-! ## Under the promises of the callers -/

/-- **C79**: if callers exclude capture during `purge`, and threads with accumulators do not end, `purge` never touches an accumulator in use nor
a destroyed one. -/
theorem C79_safe {P : State α → Prop} (hP : ∀ s, P s → Excludes s ∧ Lasts s) {s : State α} (h : Run P s) : ¬ Races s ∧ ¬ Dangles s := by
  obtain ⟨he, hl⟩ := hP s h.holds
  constructor
  · rintro ⟨t, n, k, u, a, ht, -, hu⟩
    exact he t u (by rw [ht]; trivial) (by rw [hu]; trivial)
  · rintro ⟨t, n, k, u, ht, ho, hu⟩
    refine hl u k ?_ hu
    have := List.mem_of_getElem? ho
    unfold State.order at this
    rcases List.mem_append.1 this with hm | hm <;> obtain ⟨v, hv, e⟩ := List.mem_map.1 hm <;> injection e with e1 e2 <;> subst e1 e2 <;> exact hv

theorem order_mem {s : State α} {t : Thread} {k : Kind} (h : t ∈ s.pointers k) : (k, t) ∈ s.order := by
  unfold State.order
  cases k with
  | ecdsa => exact List.mem_append_left _ (List.mem_map_of_mem h)
  | schnorr => exact List.mem_append_right _ (List.mem_map_of_mem h)

/-- What is released so far stays so. -/
def Released (s : State α) : Prop :=
  (∀ t n, s.place t = .purging n → ∀ i k u, i < n → s.order[i]? = some (k, u) → s.rows u k = []) ∧ (∀ t, s.place t = .purged → ∀ u k, s.rows u k = [])

theorem Released.step {s s' : State α} (I : Inv s) (R : Released s) (he : Excludes s) (he' : Excludes s') (h : Step s s') : Released s' := by
  -- While a thread is in purge no other captures, so only purgers move.
  have quiet : ∀ {t u : Thread}, (s.place t).Captures → ¬ (s.place u).Purges := fun ht hu => he _ _ hu ht
  have quiet' : ∀ {t u : Thread}, (s'.place t).Captures → ¬ (s'.place u).Purges := fun ht hu => he' _ _ hu ht
  have none' : ∀ {t : Thread}, (s'.place t).Captures → Released s' := by
    intro t ht
    constructor
    · intro u n hu; exact absurd (by rw [hu]; trivial) (quiet' (u := u) ht)
    · intro u hu; exact absurd (by rw [hu]; trivial) (quiet' (u := u) ht)
  have upd : ∀ (s : State α) (t : Thread) (p : Place α), (s.at t p).place t = p := fun s t p => Function.update_self ..
  -- A move to a place outside the loops.
  have move : ∀ (t : Thread) (p : Place α), (∀ n, p ≠ .purging n) → p ≠ .purged → s' = s.at t p → Released s' := by
    intro t p h1 h2 e
    subst e
    constructor
    · intro u n hu
      by_cases hut : u = t
      · subst hut; rw [upd] at hu; exact absurd hu (h1 n)
      · simp only [State.at, Function.update_of_ne hut] at hu; exact R.1 u n hu
    · intro u hu
      by_cases hut : u = t
      · subst hut; rw [upd] at hu; exact absurd hu h2
      · simp only [State.at, Function.update_of_ne hut] at hu; exact R.2 u hu
  cases h with
  | call t k a h => exact none' (t := t) (by rw [upd]; split <;> trivial)
  | lock t k a h hm => exact none' (t := t) (by show ((s.at t _).place t).Captures; rw [upd]; trivial)
  | read t k a h => exact none' (t := t) (by rw [upd]; trivial)
  | write t k a l h => exact none' (t := t) (by show ((s.at t _).place t).Captures; rw [upd]; trivial)
  | unlock t k a h => exact none' (t := t) (by show ((s.at t _).place t).Captures; rw [upd]; trivial)
  | use t k a h =>
    have hq : ∀ u, ¬ (s.place u).Purges := fun u => quiet (t := t) (by rw [h]; trivial)
    have hp : ∀ u, (finish s t k a).place u = Function.update s.place t .idle u := by intro u; cases a <;> rfl
    constructor
    · intro u n hu
      rw [hp] at hu
      by_cases hut : u = t
      · subst hut; rw [Function.update_self] at hu; cases hu
      · rw [Function.update_of_ne hut] at hu; exact absurd (by rw [hu]; trivial) (hq u)
    · intro u hu
      rw [hp] at hu
      by_cases hut : u = t
      · subst hut; rw [Function.update_self] at hu; cases hu
      · rw [Function.update_of_ne hut] at hu; exact absurd (by rw [hu]; trivial) (hq u)
  | purge t h => exact move t _ (by simp) (by simp) rfl
  | lockPurge t h hm =>
    have hn : ∀ u, ¬ (s.place u).Holds := fun u hu => by have := (I.mutex u).1 hu; rw [hm] at this; cases this
    constructor
    · intro u n hu i k v hi
      by_cases hut : u = t
      · subst hut
        have : (s.at u (.purging 0)).place u = .purging n := hu
        rw [upd] at this
        injection this with this
        omega
      · have : (s.at t (.purging 0)).place u = .purging n := hu
        simp only [State.at, Function.update_of_ne hut] at this
        exact absurd (by rw [this]; trivial) (hn u)
    · intro u hu
      by_cases hut : u = t
      · subst hut
        have : (s.at u (.purging 0)).place u = .purged := hu
        rw [upd] at this
        cases this
      · have : (s.at t (.purging 0)).place u = .purged := hu
        simp only [State.at, Function.update_of_ne hut] at this
        exact absurd (by rw [this]; trivial) (hn u)
  | release t n k u h hn =>
    have hrows : ∀ v j, (((s.store u k []).at t (.purging (n + 1))).log (.released u k)).rows v j = if v = u ∧ j = k then [] else s.rows v j := by
      intro v j
      simp only [State.log, State.at, State.store, Function.update_apply]
      by_cases hv : v = u
      · subst hv
        by_cases hj : j = k
        · simp [hj]
        · simp [hj, Function.update_of_ne hj]
      · simp [hv]
    constructor
    · intro v m hv i j w hi ho
      rw [hrows]
      have ho' : s.order[i]? = some (j, w) := ho
      by_cases hvt : v = t
      · subst hvt
        have : Function.update s.place v (.purging (n + 1)) v = .purging m := hv
        rw [Function.update_self] at this
        injection this with this
        subst this
        by_cases hin : i = n
        · subst hin
          rw [hn] at ho'
          injection ho' with e
          injection e with e1 e2
          rw [if_pos ⟨e2.symm, e1.symm⟩]
        · rw [R.1 v n h i j w (by omega) ho']; simp
      · have : Function.update s.place t (.purging (n + 1)) v = .purging m := hv
        rw [Function.update_of_ne hvt] at this
        rw [R.1 v m this i j w hi ho']; simp
    · intro v hv w j
      rw [hrows]
      by_cases hvt : v = t
      · subst hvt
        have : Function.update s.place v (.purging (n + 1)) v = .purged := hv
        rw [Function.update_self] at this
        cases this
      · have : Function.update s.place t (.purging (n + 1)) v = .purged := hv
        rw [Function.update_of_ne hvt] at this
        rw [R.2 v this w j]; simp
  | finished t n h hn =>
    constructor
    · intro v m hv
      by_cases hvt : v = t
      · subst hvt; rw [upd] at hv; cases hv
      · simp only [State.at, Function.update_of_ne hvt] at hv; exact R.1 v m hv
    · intro v hv u k
      show s.rows u k = []
      have hno : ∀ j b, s.place u ≠ .pushed j b := fun j b hu => quiet (t := u) (u := t) (by rw [hu]; trivial) (by rw [h]; trivial)
      cases ho : s.once u k with
      | false => exact I.empty u k ho
      | true =>
        have hm := order_mem ((I.member u k).2 (.inl ho))
        obtain ⟨i, hi⟩ := List.getElem?_of_mem hm
        have hlt : i < n := by
          have h1 : s.order.length ≤ n := List.getElem?_eq_none_iff.1 hn
          have h2 : i < s.order.length := (List.getElem?_eq_some_iff.1 hi).1
          omega
        exact R.1 t n h i k u hlt hi
  | unlockPurge t h =>
    constructor
    · intro v m hv
      by_cases hvt : v = t
      · subst hvt
        have : (s.at v .idle).place v = .purging m := hv
        rw [upd] at this; cases this
      · have : (s.at t .idle).place v = .purging m := hv
        simp only [State.at, Function.update_of_ne hvt] at this; exact R.1 v m this
    · intro v hv
      by_cases hvt : v = t
      · subst hvt
        have : (s.at v .idle).place v = .purged := hv
        rw [upd] at this; cases this
      · have : (s.at t .idle).place v = .purged := hv
        simp only [State.at, Function.update_of_ne hvt] at this; exact R.2 v this
  | «end» t h => exact move t _ (by simp) (by simp) rfl

theorem Run.released {P : State α → Prop} (hP : ∀ s, P s → Excludes s) {s : State α} (h : Run P s) : Released s := by
  induction h with
  | start => constructor <;> intros <;> simp_all [State.initial]
  | next hr hs hp ih => exact ih.step hr.inv (hP _ hr.holds) (hP _ hp) hs

/-- **C79**: if callers exclude capture during `purge`, then when its loops have ended every accumulator of every thread is empty. -/
theorem C79_purge {P : State α → Prop} (hP : ∀ s, P s → Excludes s) {s : State α} (h : Run P s) {t : Thread} (ht : s.place t = .purged) :
    ∀ u k, s.rows u k = [] := (h.released hP).2 t ht

/-! ## Without the promises -/

/-- Calls and steps of a thread, for examples. -/
def first (t : Thread) (row : α) (s : State α) : List (State α) :=
  let s1 := s.at t (.wantLock .ecdsa (.append row))
  let s2 := { s1.at t (.locked .ecdsa (.append row)) with mutex := some t }
  let s3 := s2.at t (.pushing .ecdsa (.append row) (s2.pointers .ecdsa))
  let s4 := { s3.at t (.pushed .ecdsa (.append row)) with pointers := Function.update s3.pointers .ecdsa (s2.pointers .ecdsa ++ [t]) }
  let s5 := { s4.at t (.using .ecdsa (.append row)) with mutex := none, once := Function.update s4.once t (Function.update (s4.once t) .ecdsa true) }
  [s1, s2, s3, s4, s5]

theorem run_first {P : State Nat → Prop} (h0 : Run P (State.initial Nat)) (h : ∀ s ∈ first 0 7 (State.initial Nat), P s) :
    ∃ s, Run P s ∧ s.place 0 = .using .ecdsa (.append 7) ∧ s.mutex = none ∧ s.pointers .ecdsa = [0] ∧ s.pointers .schnorr = [] ∧ (∀ t, t ≠ 0 → s.place t = .idle) ∧
      s.once 0 .ecdsa = true := by
  unfold first at h
  simp only [List.mem_cons, List.not_mem_nil, or_false, forall_eq_or_imp, forall_eq] at h
  obtain ⟨p1, p2, p3, p4, p5⟩ := h
  have r1 := h0.next (.call _ 0 .ecdsa (.append 7) rfl) p1
  have r2 := r1.next (.lock _ 0 .ecdsa (.append 7) rfl rfl) p2
  have r3 := r2.next (.read _ 0 .ecdsa (.append 7) rfl) p3
  have r4 := r3.next (.write _ 0 .ecdsa (.append 7) _ rfl) p4
  have r5 := r4.next (.unlock _ 0 .ecdsa (.append 7) rfl) p5
  refine ⟨_, r5, rfl, rfl, rfl, rfl, ?_, rfl⟩
  intro t ht
  simp [State.at, Function.update_of_ne ht, State.initial]

/-- Without the exclusion `purge` may touch an accumulator that another thread is appending to. -/
theorem C79_race_counterexample : ∃ s : State Nat, Run Lasts s ∧ Races s := by
  have last : ∀ s : State Nat, (∀ t, s.place t ≠ .ended) → Lasts s := fun s h t _ _ => h t
  have h0 : ∀ t, (State.initial Nat).place t ≠ .ended := fun t h => by cases h
  have hmove : ∀ (s : State Nat) (t : Thread) (p : Place Nat), (∀ u, s.place u ≠ .ended) → p ≠ .ended → ∀ u, (s.at t p).place u ≠ .ended := by
    intro s t p hs hp u
    simp only [State.at, Function.update_apply]
    split
    · exact hp
    · exact hs u
  obtain ⟨s, r, hu, hm, hpe, hps, hi, ho⟩ := run_first (P := Lasts) (.start (last _ h0)) (by
    intro s hs
    unfold first at hs
    simp only [List.mem_cons, List.not_mem_nil, or_false] at hs
    have a1 := hmove _ 0 (.wantLock .ecdsa (.append 7)) h0 (by simp)
    have a2 := hmove _ 0 (.locked .ecdsa (.append 7)) a1 (by simp)
    have a3 := hmove _ 0 (.pushing .ecdsa (.append 7) ((State.initial Nat).pointers .ecdsa)) a2 (by simp)
    have a4 := hmove _ 0 (.pushed .ecdsa (.append 7)) a3 (by simp)
    have a5 := hmove _ 0 (.using .ecdsa (.append 7)) a4 (by simp)
    rcases hs with rfl | rfl | rfl | rfl | rfl
    · exact last _ a1
    · exact last _ a2
    · exact last _ a3
    · exact last _ a4
    · exact last _ a5)
  have e0 : ∀ u, s.place u ≠ .ended := by
    intro u
    by_cases hu0 : u = 0
    · rw [hu0, hu]; simp
    · rw [hi u hu0]; simp
  have e1 := hmove _ 1 .wantPurge e0 (by simp)
  have e2 := hmove _ 1 (.purging 0) e1 (by simp)
  have r1 := r.next (.purge s 1 (hi 1 (by decide))) (last _ e1)
  have r2 := r1.next (.lockPurge _ 1 (by simp [State.at]) hm) (last _ e2)
  refine ⟨_, r2, 1, 0, .ecdsa, 0, .append 7, by simp [State.at], ?_, ?_⟩
  · simp [State.order, State.at, hpe, hps]
  · show Function.update (Function.update s.place 1 .wantPurge) 1 (.purging 0) 0 = _
    rw [Function.update_of_ne (by decide), Function.update_of_ne (by decide), hu]

/-- If a thread with an accumulator ends, `purge` follows a pointer to what is destroyed, although no capture overlaps it. -/
theorem C79_dangling_counterexample : ∃ s : State Nat, Run Excludes s ∧ Dangles s := by
  have noPurge : ∀ s : State Nat, (∀ t, ¬ (s.place t).Purges) → Excludes s := fun s h t _ ht => absurd ht (h t)
  have h0 : ∀ t, ¬ ((State.initial Nat).place t).Purges := fun t h => h
  have hmove : ∀ (s : State Nat) (t : Thread) (p : Place Nat), (∀ u, ¬ (s.place u).Purges) → ¬ p.Purges → ∀ u, ¬ ((s.at t p).place u).Purges := by
    intro s t p hs hp u
    simp only [State.at, Function.update_apply]
    split
    · exact hp
    · exact hs u
  obtain ⟨s, r, hu, hm, hpe, hps, hi, ho⟩ := run_first (P := Excludes) (.start (noPurge _ h0)) (by
    intro s hs
    unfold first at hs
    simp only [List.mem_cons, List.not_mem_nil, or_false] at hs
    have a1 := hmove _ 0 (.wantLock .ecdsa (.append 7)) h0 (fun h => h)
    have a2 := hmove _ 0 (.locked .ecdsa (.append 7)) a1 (fun h => h)
    have a3 := hmove _ 0 (.pushing .ecdsa (.append 7) ((State.initial Nat).pointers .ecdsa)) a2 (fun h => h)
    have a4 := hmove _ 0 (.pushed .ecdsa (.append 7)) a3 (fun h => h)
    have a5 := hmove _ 0 (.using .ecdsa (.append 7)) a4 (fun h => h)
    rcases hs with rfl | rfl | rfl | rfl | rfl
    · exact noPurge _ a1
    · exact noPurge _ a2
    · exact noPurge _ a3
    · exact noPurge _ a4
    · exact noPurge _ a5)
  have e0 : ∀ u, ¬ (s.place u).Purges := by
    intro u
    by_cases hu0 : u = 0
    · rw [hu0, hu]; exact fun h => h
    · rw [hi u hu0]; exact fun h => h
  have e1 := hmove _ 0 .idle e0 (fun h => h)
  have e2 := hmove _ 0 .ended e1 (fun h => h)
  have r1 := r.next (.use s 0 .ecdsa (.append 7) hu) (noPurge _ e1)
  have r2 := r1.next (.end _ 0 (by simp [finish, State.log, State.at])) (noPurge _ e2)
  have quiet : ∀ (q : State Nat) (p : Place Nat), (∀ u, u ≠ 1 → q.place u = .ended ∨ q.place u = .idle) → ¬ p.Captures → Excludes (q.at 1 p) := by
    intro q p hq hp t u _ hc
    by_cases h1 : u = 1
    · subst h1; simp only [State.at, Function.update_self] at hc; exact hp hc
    · simp only [State.at, Function.update_of_ne h1] at hc
      rcases hq u h1 with h | h <;> rw [h] at hc <;> exact hc
  have still : ∀ u, ((finish s 0 .ecdsa (.append 7)).at 0 .ended).place u = .ended ∨ ((finish s 0 .ecdsa (.append 7)).at 0 .ended).place u = .idle := by
    intro u
    by_cases hu0 : u = 0
    · subst hu0; left; simp [State.at]
    · right
      simp only [State.at, Function.update_of_ne hu0, finish, State.log, State.store]
      exact hi u hu0
  have r3 := r2.next (.purge _ 1 (by
    simp only [State.at, finish, State.log, State.store, Function.update_of_ne (show (1 : Nat) ≠ 0 by decide)]; exact hi 1 (by decide)))
    (quiet _ _ (fun u _ => still u) (fun h => h))
  have r4 := r3.next (.lockPurge _ 1 (by simp [State.at]) hm) (by
    refine fun t u ht hc => quiet (((finish s 0 .ecdsa (.append 7)).at 0 .ended).at 1 .wantPurge) (.purging 0) (fun u h1 => ?_) (fun h => h) t u ht hc
    simp only [State.at, Function.update_of_ne h1]
    exact still u)
  refine ⟨_, r4, 1, 0, .ecdsa, 0, by simp [State.at], ?_, ?_⟩
  · show (State.order _)[0]? = _
    simp [State.order, State.at, finish, State.log, State.store, hpe, hps]
  · show Function.update (Function.update ((finish s 0 .ecdsa (.append 7)).at 0 .ended).place 1 .wantPurge) 1 (.purging 0) 0 = _
    rw [Function.update_of_ne (by decide), Function.update_of_ne (by decide)]
    simp [State.at]

/-- Non-vacuity: a run that keeps both promises, in which a thread appends a row and reads it, and another completes `purge`. -/
example : ∃ s : State Nat, Run (fun s => Excludes s ∧ Lasts s) s ∧ s.place 1 = .purged ∧
    s.history = [.appended 0 .ecdsa 7, .took 0 .ecdsa [7], .released 0 .ecdsa] := by
  let P : State Nat → Prop := fun s => Excludes s ∧ Lasts s
  -- Only thread 0 captures, only thread 1 purges, no thread ends.
  have calm : ∀ s : State Nat, (∀ t, t ≠ 0 → t ≠ 1 → s.place t = .idle) → (∀ t, s.place t ≠ .ended) →
      ((s.place 0 = .idle ∧ ¬ (s.place 1).Captures) ∨ (s.place 1 = .idle ∧ ¬ (s.place 0).Purges)) → P s := by
    intro s hi he h
    refine ⟨fun t u ht hu => ?_, fun t _ _ => he t⟩
    have i : ∀ v, s.place v = .idle → ¬ (s.place v).Purges ∧ ¬ (s.place v).Captures := fun v hv => by rw [hv]; exact ⟨fun h => h, fun h => h⟩
    have only : ∀ v, (s.place v).Purges ∨ (s.place v).Captures → v = 0 ∨ v = 1 := by
      intro v hv
      by_contra hc
      rw [not_or] at hc
      have := i v (hi v hc.1 hc.2)
      exact hv.elim this.1 this.2
    rcases h with ⟨h0, h1⟩ | ⟨h1, h0⟩
    · have := i 0 h0
      rcases only u (.inr hu) with rfl | rfl
      · exact this.2 hu
      · exact h1 hu
    · have := i 1 h1
      rcases only t (.inl ht) with rfl | rfl
      · exact h0 ht
      · exact this.1 ht
  let s1 := (State.initial Nat).at 0 (.wantLock .ecdsa (.append 7))
  let s2 : State Nat := { s1.at 0 (.locked .ecdsa (.append 7)) with mutex := some 0 }
  let s3 := s2.at 0 (.pushing .ecdsa (.append 7) [])
  let s4 : State Nat := { s3.at 0 (.pushed .ecdsa (.append 7)) with pointers := Function.update s3.pointers .ecdsa [0] }
  let s5 : State Nat := { s4.at 0 (.using .ecdsa (.append 7)) with mutex := none, once := Function.update s4.once 0 (Function.update (s4.once 0) .ecdsa true) }
  let s6 := finish s5 0 .ecdsa (.append 7)
  let s7 := s6.at 0 (.using .ecdsa .take)
  let s8 := finish s7 0 .ecdsa .take
  let s9 := s8.at 1 .wantPurge
  let s10 : State Nat := { s9.at 1 (.purging 0) with mutex := some 1 }
  let s11 := ((s10.store 0 .ecdsa []).at 1 (.purging 1)).log (.released 0 .ecdsa)
  let s12 := s11.at 1 .purged
  have idle : ∀ (s : State Nat) (i : Nat) (p : Place Nat), i = 0 ∨ i = 1 → (∀ t, t ≠ 0 → t ≠ 1 → s.place t = .idle) →
      ∀ t, t ≠ 0 → t ≠ 1 → (s.at i p).place t = .idle := by
    intro s i p hi h t h0 h1
    have : t ≠ i := by rcases hi with rfl | rfl <;> assumption
    simp only [State.at, Function.update_of_ne this]
    exact h t h0 h1
  have live : ∀ (s : State Nat) (i : Nat) (p : Place Nat), p ≠ .ended → (∀ t, s.place t ≠ .ended) → ∀ t, (s.at i p).place t ≠ .ended := by
    intro s i p hp h t
    simp only [State.at, Function.update_apply]
    split
    · exact hp
    · exact h t
  have i0 : ∀ t, t ≠ 0 → t ≠ 1 → (State.initial Nat).place t = .idle := fun _ _ _ => rfl
  have l0 : ∀ t, (State.initial Nat).place t ≠ .ended := fun _ h => by cases h
  have i1 := idle _ 0 (.wantLock .ecdsa (.append 7)) (.inl rfl) i0
  have l1 := live _ 0 (.wantLock .ecdsa (.append 7)) (by simp) l0
  have i2 := idle s1 0 (.locked .ecdsa (.append 7)) (.inl rfl) i1
  have l2 := live s1 0 (.locked .ecdsa (.append 7)) (by simp) l1
  have i3 := idle s2 0 (.pushing .ecdsa (.append 7) []) (.inl rfl) i2
  have l3 := live s2 0 (.pushing .ecdsa (.append 7) []) (by simp) l2
  have i4 := idle s3 0 (.pushed .ecdsa (.append 7)) (.inl rfl) i3
  have l4 := live s3 0 (.pushed .ecdsa (.append 7)) (by simp) l3
  have i5 := idle s4 0 (.using .ecdsa (.append 7)) (.inl rfl) i4
  have l5 := live s4 0 (.using .ecdsa (.append 7)) (by simp) l4
  have i6 := idle s5 0 .idle (.inl rfl) i5
  have l6 := live s5 0 .idle (by simp) l5
  have i7 := idle s6 0 (.using .ecdsa .take) (.inl rfl) i6
  have l7 := live s6 0 (.using .ecdsa .take) (by simp) l6
  have i8 := idle s7 0 .idle (.inl rfl) i7
  have l8 := live s7 0 .idle (by simp) l7
  have i9 := idle s8 1 .wantPurge (.inr rfl) i8
  have l9 := live s8 1 .wantPurge (by simp) l8
  have i10 := idle s9 1 (.purging 0) (.inr rfl) i9
  have l10 := live s9 1 (.purging 0) (by simp) l9
  have i11 := idle s10 1 (.purging 1) (.inr rfl) i10
  have l11 := live s10 1 (.purging 1) (by simp) l10
  have i12 := idle s11 1 .purged (.inr rfl) i11
  have l12 := live s11 1 .purged (by simp) l11
  have r0 : Run P (State.initial Nat) := .start (calm _ i0 l0 (.inr ⟨rfl, fun h => h⟩))
  have r1 : Run P s1 := r0.next (.call _ 0 .ecdsa (.append 7) rfl) (calm s1 i1 l1 (.inr ⟨rfl, fun h => h⟩))
  have r2 : Run P s2 := r1.next (.lock _ 0 .ecdsa (.append 7) rfl rfl) (calm s2 i2 l2 (.inr ⟨rfl, fun h => h⟩))
  have r3 : Run P s3 := r2.next (.read _ 0 .ecdsa (.append 7) rfl) (calm s3 i3 l3 (.inr ⟨rfl, fun h => h⟩))
  have r4 : Run P s4 := r3.next (.write s3 0 .ecdsa (.append 7) [] rfl) (calm s4 i4 l4 (.inr ⟨rfl, fun h => h⟩))
  have r5 : Run P s5 := r4.next (.unlock _ 0 .ecdsa (.append 7) rfl) (calm s5 i5 l5 (.inr ⟨rfl, fun h => h⟩))
  have r6 : Run P s6 := r5.next (.use _ 0 .ecdsa (.append 7) rfl) (calm s6 i6 l6 (.inr ⟨rfl, fun h => h⟩))
  have r7 : Run P s7 := r6.next (.call _ 0 .ecdsa .take rfl) (calm s7 i7 l7 (.inr ⟨rfl, fun h => h⟩))
  have r8 : Run P s8 := r7.next (.use _ 0 .ecdsa .take rfl) (calm s8 i8 l8 (.inr ⟨rfl, fun h => h⟩))
  have r9 : Run P s9 := r8.next (.purge _ 1 rfl) (calm s9 i9 l9 (.inl ⟨rfl, fun h => h⟩))
  have r10 : Run P s10 := r9.next (.lockPurge _ 1 rfl rfl) (calm s10 i10 l10 (.inl ⟨rfl, fun h => h⟩))
  have r11 : Run P s11 := r10.next (.release _ 1 0 .ecdsa 0 rfl rfl) (calm s11 i11 l11 (.inl ⟨rfl, fun h => h⟩))
  have r12 : Run P s12 := r11.next (.finished _ 1 1 rfl rfl) (calm s12 i12 l12 (.inl ⟨rfl, fun h => h⟩))
  exact ⟨s12, r12, rfl, rfl⟩

end Verif.Registry
