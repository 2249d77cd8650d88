import Verif.Lemmas.Script2
/-! Helper lemmas: forward and backward codec relations for readers without a binding limit, and their instances. -/
namespace Verif

/-- From `s` to `s'` the position advanced by `n` and the limit still does not cut the buffer. -/
structure RS.Mv (n : Nat) (s s' : RS) : Prop where
  data : s'.data = s.data
  pos : s'.pos = s.pos + n
  good : s'.good = s.good
  ub : s'.ub = s.ub
  unl : s'.Unl

theorem RS.Mv.trans {m n : Nat} {a b c : RS} (h : RS.Mv m a b) (k : RS.Mv n b c) : RS.Mv (m + n) a c :=
  ⟨k.data.trans h.data, by rw [k.pos, h.pos]; omega, k.good.trans h.good, k.ub.trans h.ub, k.unl⟩

theorem RS.Mv.rest {n : Nat} {s s' : RS} (h : RS.Mv n s s') : s'.rest = s.rest.drop n := by
  unfold RS.rest; rw [h.data, h.pos, List.drop_drop]

theorem RS.Mv.ok {n : Nat} {s s' : RS} (h : RS.Mv n s s') (hs : s.OK) (hn : n ≤ s.rest.length) : s'.OK := by
  have := s.rest_length
  have := hs.wf
  exact ⟨by rw [h.data, h.pos]; omega, by rw [h.data]; exact hs.small⟩

/-- `p` reads exactly `bs`, yields `x`. -/
def FwdU {α} (p : Reader α) (bs : Bytes) (x : α) : Prop :=
  ∀ s : RS, s.OK → s.good = true → s.Unl → bs <+: s.rest → (p s).1 = x ∧ RS.Mv bs.length s (p s).2

theorem Fwd.U {α} {p : Reader α} {bs : Bytes} {x : α} (h : Fwd p bs x) : FwdU p bs x := by
  intro s hs hg hu hp
  rw [h s hs hg (by rw [hu.view]; exact hp)]
  exact ⟨rfl, rfl, rfl, rfl, rfl, hu.adv _⟩

theorem FwdU.bind {α β} {p : Reader α} {f : α → Reader β} {a b : Bytes} {x : α} {y : β}
    (hp : FwdU p a x) (hf : FwdU (f x) b y) : FwdU (p >>= f) (a ++ b) y := by
  intro s hs hg hu hv
  have ha : a <+: s.rest := (List.prefix_append a b).trans hv
  obtain ⟨h1, h2⟩ := hp s hs hg hu ha
  obtain ⟨h3, h4⟩ := hf (p s).2 (h2.ok hs ha.length_le) (h2.good.trans hg) h2.unl
    (by rw [h2.rest]; exact prefix_drop hv)
  rw [bind_run, h1]
  exact ⟨h3, by rw [List.length_append]; exact h2.trans h4⟩

theorem FwdU.pure {α} (x : α) : FwdU (Pure.pure x) [] x := (Fwd.pure x).U

theorem FwdU.congr {α} {p : Reader α} {a b : Bytes} {x y : α} (h : FwdU p a x) (hab : a = b) (hxy : x = y) :
    FwdU p b y := by subst hab; subst hxy; exact h

theorem FwdU.map {α β} {p : Reader α} {a : Bytes} {x : α} (g : α → β) (hp : FwdU p a x) :
    FwdU (p >>= fun v => Pure.pure (g v)) a (g x) :=
  (hp.bind (f := fun v => Pure.pure (g v)) (FwdU.pure (g x))).congr (by simp) rfl

/-- Last step form: `p` then a pure value. -/
theorem FwdU.last {α β} {p : Reader α} {f : α → Reader β} {a : Bytes} {x : α} {y : β}
    (hp : FwdU p a x) (hf : f x = Pure.pure y) : FwdU (p >>= f) a y :=
  (hp.bind (b := []) (y := y) (by rw [hf]; exact .pure y)).congr (by simp) rfl

theorem FwdU.bind0 {α β} {p : Reader α} {f : α → Reader β} {a : Bytes} {x : α} {y : β}
    (hp : FwdU p a x) (hf : FwdU (f x) [] y) : FwdU (p >>= f) a y :=
  (hp.bind hf).congr (by simp) rfl

theorem FwdU.done {β} (g : Bool → β) : FwdU (isGood >>= fun v => Pure.pure (g v)) [] (g true) :=
  (fwd_isGood.map g).U

structure BwdU {α} (p : Reader α) (R : α → Bytes → Prop) : Prop where
  tame : Tame p
  back : ∀ s : RS, s.OK → s.Unl → (p s).2.good = true →
    s.good = true ∧ ∃ bs, bs <+: s.rest ∧ R (p s).1 bs ∧ RS.Mv bs.length s (p s).2

theorem Bwd.U {α} {p : Reader α} {R : α → Bytes → Prop} (h : Bwd p R) : BwdU p R where
  tame := h.tame
  back s hs hu hg := by
    obtain ⟨g, b, h1, h2, h3⟩ := h.back s hs hg
    exact ⟨g, b, by rw [← hu.view]; exact h1, h2, by rw [h3]; exact ⟨rfl, rfl, rfl, rfl, hu.adv _⟩⟩

theorem BwdU.bind {α β} {p : Reader α} {f : α → Reader β} {Ra : α → Bytes → Prop}
    {Rb : α → β → Bytes → Prop} (hp : BwdU p Ra) (hf : ∀ x, BwdU (f x) (Rb x)) :
    BwdU (p >>= f) (fun y bs => ∃ x a b, bs = a ++ b ∧ Ra x a ∧ Rb x y b) where
  tame := hp.tame.bind fun x => (hf x).tame
  back s hs hu hgood := by
    rw [bind_run] at hgood ⊢
    cases hg1 : (p s).2.good with
    | false => rw [(hf _).tame.sticky _ hg1] at hgood; cases hgood
    | true =>
      obtain ⟨g, a, hpa, hra, hst⟩ := hp.back s hs hu hg1
      obtain ⟨_, b, hpb, hrb, hst2⟩ := (hf _).back _ (hp.tame.ok s hs) hst.unl hgood
      refine ⟨g, a ++ b, ?_, ⟨_, a, b, rfl, hra, hrb⟩, by rw [List.length_append]; exact hst.trans hst2⟩
      rw [hst.rest] at hpb
      obtain ⟨t, ht⟩ := hpa
      rw [← ht] at hpb ⊢
      rw [List.drop_left] at hpb
      exact (List.prefix_append_right_inj _).mpr hpb

theorem BwdU.mono {α} {p : Reader α} {R R' : α → Bytes → Prop} (h : BwdU p R) (hr : ∀ x b, R x b → R' x b) :
    BwdU p R' where
  tame := h.tame
  back s hs hu hg := by
    obtain ⟨g, b, h1, h2, h3⟩ := h.back s hs hu hg
    exact ⟨g, b, h1, hr _ _ h2, h3⟩

theorem BwdU.pure {α} (x : α) : BwdU (Pure.pure x : Reader α) (fun y b => y = x ∧ b = []) := (Bwd.pure x).U

theorem BwdU.bindPure {α β} {p : Reader α} {R : α → Bytes → Prop} (h : BwdU p R) (g : α → β) :
    BwdU (p >>= fun v => Pure.pure (g v)) (fun y b => ∃ x, y = g x ∧ R x b) :=
  (h.bind fun v => .pure (g v)).mono (by
    rintro y b ⟨x, a, c, rfl, ha, rfl, rfl⟩
    exact ⟨x, rfl, by simpa using ha⟩)

theorem BwdU.ite {α} {c : Prop} [Decidable c] {p q : Reader α} {R R' : α → Bytes → Prop}
    (hp : BwdU p R) (hq : BwdU q R') :
    BwdU (if c then p else q) (fun x b => (c ∧ R x b) ∨ (¬ c ∧ R' x b)) := by
  split
  · rename_i h; exact hp.mono fun _ _ hr => .inl ⟨h, hr⟩
  · rename_i h; exact hq.mono fun _ _ hr => .inr ⟨h, hr⟩

/-! ### fixed-size values -/

theorem fitBytes_of_length {n : Nat} {b : Bytes} (h : b.length = n) : fitBytes n b = b := by
  subst h; simp [fitBytes]

theorem Hash.of_bytes (h : Hash) : Hash.of h.bytes = h :=
  Hash.ext (fitBytes_of_length h.len)

theorem fwd_readHash (h : Hash) : Fwd readHash h.bytes h := by
  have := (fwd_doRead h.bytes 32 h.len).map Hash.of
  rwa [Hash.of_bytes] at this

theorem bwd_readHash : Bwd readHash (fun x b => b = x.bytes) :=
  ((bwd_doRead (by decide : 32 < offMax)).bindPure _).mono (by
    rintro y b ⟨x, rfl, rfl, hl⟩
    exact (fitBytes_of_length hl).symm)

theorem fwd_readU32 (v : UInt32) : Fwd readU32 (writeU32 v) v := by
  have := (fwd_readLE 4 v.toNat (by have := v.toNat_lt; omega)).map UInt32.ofNat
  rwa [UInt32.ofNat_toNat] at this

theorem fwd_readU64 (v : UInt64) : Fwd readU64 (writeU64 v) v := by
  have := (fwd_readLE 8 v.toNat (by have := v.toNat_lt; omega)).map UInt64.ofNat
  rwa [UInt64.ofNat_toNat] at this

theorem bwd_readU32 : Bwd readU32 (fun x b => b = writeU32 x) :=
  ((bwd_readLE (by decide : 4 < offMax)).bindPure _).mono (by
    rintro y b ⟨x, rfl, rfl, hl⟩
    rw [writeU32, UInt32.toNat_ofNat_of_lt' (by simpa using hl)])

theorem bwd_readU64 : Bwd readU64 (fun x b => b = writeU64 x) :=
  ((bwd_readLE (by decide : 8 < offMax)).bindPure _).mono (by
    rintro y b ⟨x, rfl, rfl, hl⟩
    rw [writeU64, UInt64.toNat_ofNat_of_lt' (by simpa using hl)])

@[simp] theorem writeU32_length (v : UInt32) : (writeU32 v).length = 4 := by simp [writeU32, writeLE]
@[simp] theorem writeU64_length (v : UInt64) : (writeU64 v).length = 8 := by simp [writeU64, writeLE]

/-! ### point -/

def Point.norm (p : Point) : Point := { p with valid := true }

theorem fwd_point (p : Point) : Fwd Point.read p.toData p.norm := by
  unfold Point.read Point.toData
  refine (fwd_readHash p.hash).bind ?_
  exact ((fwd_readU32 p.index).bind (b := []) (y := p.norm)
    (fwd_isGood.map (fun v => ({ hash := p.hash, index := p.index, valid := v } : Point)))).congr (by simp) rfl

theorem bwd_point : Bwd Point.read (fun p b => p.valid = true ∧ b = p.toData) := by
  unfold Point.read
  refine (bwd_readHash.bind fun h => bwd_readU32.bind fun i => bwd_isGood.bind fun v => .pure _).mono ?_
  rintro p b ⟨h, a, b1, rfl, rfl, i, a1, b2, rfl, rfl, v, a2, b3, rfl, ⟨rfl, rfl⟩, rfl, rfl⟩
  exact ⟨rfl, by simp [Point.toData]⟩

/-! ### script -/

def Script.norm (s : Script) : Script := { s with valid := true }

theorem Script.toData_true {sc : Script} :
    sc.toData true = writeVariable sc.size ++ opsData sc.ops := rfl

theorem fwd_script {sc : Script} (h : sc.Writable) : FwdU (Script.read true) (sc.toData true) sc.norm := by
  intro s hs hg hu hp
  rw [Script.toData_true] at hp ⊢
  have hlen := hp.length_le
  rw [List.length_append, s.rest_length, writeVariable_length] at hlen
  have hsm := hs.small
  have hoff : offMax = 2 ^ 63 := rfl
  have hmax : maxSize = 2 ^ 64 - 1 := rfl
  have hsz := h.size
  have hvp := variableSize_pos sc.size
  have hw := hs.wf
  have hrd := fwd_readSize maxSize sc.size (by omega) (by omega) s hs hg
    (by rw [hu.view]; exact (List.prefix_append _ _).trans hp)
  have hg2 : (readSize maxSize s).2.good = true := by rw [hrd]; exact hg
  have hfit : sc.size ≤ (readSize maxSize s).2.data.length - (readSize maxSize s).2.pos := by
    rw [hrd]; simp only [RS.adv_data, RS.adv_pos, writeVariable_length]; omega
  have he : readSize maxSize s = (sc.size, (readSize maxSize s).2) := by rw [hrd]
  obtain ⟨k1, k2, k3, k4, k5⟩ := Script.read_prefixed_ok hs sc.size he hg2 hfit
  have hrest : (readSize maxSize s).2.rest.take sc.size = opsData sc.ops := by
    rw [hrd]
    simp only [RS.rest_adv]
    obtain ⟨t, ht⟩ := hp
    rw [← ht, List.append_assoc, List.drop_left, hsz, List.take_left]
  rw [hrest] at k2
  -- the parsed operations are the original ones
  have hops : (Script.read true s).1.ops = sc.ops := by
    have hi : RS.OK (RS.init (opsData sc.ops)) := ⟨Nat.zero_le _, by simp only [RS.init]; omega⟩
    have hv : (RS.init (opsData sc.ops)).view = opsData sc.ops := by
      unfold RS.view RS.rest RS.init
      simp only [List.drop_zero]
      exact List.take_of_length_le (by omega)
    have hrep : (RS.init (opsData sc.ops)).Rep := Nat.le_refl _
    have e1 := readOps_fwd _ h.ops ((opsData sc.ops).length + 1) _ hi rfl hrep (by rw [hv]; omega) hv
    have e2 := readOps_fwd _ k1 ((opsData sc.ops).length + 1) _ hi rfl hrep (by rw [hv]; omega) (by rw [hv, k2])
    rw [← e1, ← e2]
  refine ⟨?_, ?_⟩
  · generalize (Script.read true s).1 = r at *
    obtain ⟨o, v, z⟩ := r
    simp only at hops k3 k4
    subst hops k3 k4
    rfl
  · rw [k5, hrd]
    refine ⟨rfl, ?_, rfl, rfl, ?_⟩
    · simp only [RS.adv_pos, List.length_append]; omega
    · unfold RS.Unl; simp only [RS.adv_data]; omega

theorem bwd_script : BwdU (Script.read true) (fun sc b => sc.Writable ∧ sc.valid = true ∧ b = sc.toData true) where
  tame := tame_Script_read_true
  back s hs hu hg := by
    have hsm := hs.small
    have hoff : offMax = 2 ^ 63 := rfl
    have hmax : maxSize = 2 ^ 64 - 1 := rfl
    by_cases h : (readSize maxSize s).2.good = false ∨
      (readSize maxSize s).2.data.length - (readSize maxSize s).2.pos < (readSize maxSize s).1
    · have := (Script.read_prefixed_bad hs h).2.1
      rw [this] at hg; cases hg
    · rw [not_or, Bool.not_eq_false] at h
      have hfit := Nat.le_of_not_lt h.2
      obtain ⟨k1, k2, k3, k4, k5⟩ := Script.read_prefixed_ok hs (readSize maxSize s).1 rfl h.1 hfit
      obtain ⟨g, b, hp, ⟨rfl, hlt, hle⟩, hst⟩ := (bwd_readSize maxSize).back s hs h.1
      rw [hu.view] at hp
      generalize hE : (readSize maxSize s).1 = e at *
      rw [hst] at hfit k2 k5
      simp only [RS.adv_data, RS.adv_pos] at hfit
      have hlen : (opsData (Script.read true s).1.ops).length = e := by
        rw [k2, List.length_take, RS.rest_length]
        simp only [RS.adv_data, RS.adv_pos]
        omega
      have henc : (Script.read true s).1.toData true = writeVariable e ++ opsData (Script.read true s).1.ops := by
        rw [Script.toData_true, k4]
      refine ⟨g, (Script.read true s).1.toData true, ?_, ⟨⟨k1, by rw [k4, hlen]⟩, k3, rfl⟩, ?_⟩
      · rw [henc, k2, RS.rest_adv]
        obtain ⟨t, ht⟩ := hp
        rw [← ht, List.drop_left]
        exact (List.prefix_append_right_inj _).mpr (List.take_prefix _ _)
      · rw [henc, List.length_append, hlen, k5]
        refine ⟨rfl, ?_, rfl, rfl, ?_⟩
        · simp only [RS.adv_pos]; omega
        · unfold RS.Unl; simp only [RS.adv_data, RS.adv_pos]; omega

/-! ### witness -/

def encElement (e : Bytes) : Bytes := writeVariable e.length ++ e

theorem maxBytes_lt : maxBytes < offMax := by decide

theorem fwd_readElement {e : Bytes} (h : e.length ≤ maxBytes) : Fwd readElement (encElement e) e :=
  (fwd_readSize maxBytes e.length (by have : maxBytes = 4000000 := rfl; omega) h).bind (fwd_readBytes e)

theorem bwd_readElement : Bwd readElement (fun e b => e.length ≤ maxBytes ∧ b = encElement e) where
  tame := (tame_readSize maxBytes).bind' (P := fun n => n ≤ maxBytes) (fun s => readSize_le _ s)
    fun n hn => tame_readBytes (Nat.lt_of_le_of_lt hn maxBytes_lt)
  back s hs hg := by
    have hn := readSize_le maxBytes s
    unfold readElement at hg ⊢
    rw [bind_run] at hg ⊢
    have tb := tame_readBytes (Nat.lt_of_le_of_lt hn maxBytes_lt)
    cases hg1 : (readSize maxBytes s).2.good with
    | false => rw [tb.sticky _ hg1] at hg; cases hg
    | true =>
      obtain ⟨g, a, hpa, ⟨rfl, _, _⟩, hst⟩ := (bwd_readSize maxBytes).back s hs hg1
      obtain ⟨_, b, hpb, ⟨hx, hl⟩, hst2⟩ := (bwd_readBytes (Nat.lt_of_le_of_lt hn maxBytes_lt)).back _
        ((tame_readSize maxBytes).ok s hs) hg
      refine ⟨g, writeVariable (readSize maxBytes s).1 ++ b, ?_, ⟨by rw [hx, hl]; exact hn, ?_⟩, ?_⟩
      · rw [hst, RS.view_adv] at hpb
        obtain ⟨t, ht⟩ := hpa
        rw [← ht] at hpb ⊢
        rw [List.drop_left] at hpb
        exact (List.prefix_append_right_inj _).mpr hpb
      · rw [hx, encElement, hl]
      · rw [hst2, hst]; simp

theorem fwd_readElements : ∀ (es : List Bytes), (∀ e ∈ es, e.length ≤ maxBytes) →
    Fwd (readElements es.length) (es.flatMap encElement) es := by
  intro es
  induction es with
  | nil => intro _; exact Fwd.pure []
  | cons e es ih =>
    intro h
    refine ((fwd_readElement (h e (by simp))).bind ((ih fun x hx => h x (by simp [hx])).bind (b := []) (Fwd.pure (e :: es)))).congr ?_ rfl
    simp

theorem bwd_readElements : ∀ (n : Nat), Bwd (readElements n) (fun es b =>
    es.length = n ∧ (∀ e ∈ es, e.length ≤ maxBytes) ∧ b = es.flatMap encElement) := by
  intro n
  induction n with
  | zero => exact (Bwd.pure []).mono (by rintro _ _ ⟨rfl, rfl⟩; simp)
  | succ n ih =>
    refine (bwd_readElement.bind fun e => ih.bind fun es => Bwd.pure (e :: es)).mono ?_
    rintro y b ⟨e, a, b1, rfl, ⟨he, rfl⟩, es, a1, b2, rfl, ⟨hl, hes, rfl⟩, rfl, rfl⟩
    refine ⟨by simp [hl], ?_, by simp⟩
    intro x hx
    rcases List.mem_cons.mp hx with rfl | hx
    · exact he
    · exact hes x hx

def Witness.norm (w : Witness) : Witness := Witness.ofStack w.stack

theorem fwd_witness {w : Witness} (h : w.Writable) : Fwd (Witness.read true) (w.toData true) w.norm := by
  have hc := (fwd_readSize maxBytes w.stack.length (by have : maxBytes = 4000000 := rfl; have := h.count; omega) h.count).bind
    (fwd_readElements w.stack h.elements)
  intro s hs hg hv
  have := hc s hs hg hv
  rw [bind_run] at this
  unfold Witness.read
  simp only [if_true]
  rw [this]
  simp only [RS.adv_good, hg]
  rfl

theorem bwd_witness : Bwd (Witness.read true) (fun w b => w.Writable ∧ w = w.norm ∧ b = w.toData true) := by
  have hb := (bwd_readSize maxBytes).bind fun n => bwd_readElements n
  have hst : ∀ s, (Witness.read true s).2 = ((readSize maxBytes >>= readElements) s).2 := fun s => rfl
  refine ⟨⟨fun s => hb.tame.ok s, fun s => hb.tame.data s, fun s => hb.tame.ub s, fun s => hb.tame.sticky s⟩, ?_⟩
  intro s hs hg
  obtain ⟨g, b, hp, ⟨n, a, b1, rfl, ⟨rfl, _, hn⟩, hl, hes, rfl⟩, hfin⟩ := hb.back s hs hg
  have hstack : (Witness.read true s).1.stack = ((readSize maxBytes >>= readElements) s).1 := rfl
  have henc : (Witness.read true s).1.toData true = writeVariable n ++
      ((readSize maxBytes >>= readElements) s).1.flatMap encElement := by
    show writeVariable (Witness.read true s).1.stack.length ++ _ = _
    rw [hstack, hl]; rfl
  refine ⟨g, (Witness.read true s).1.toData true, by rw [henc]; exact hp, ⟨⟨by rw [hstack, hl]; exact hn, by rw [hstack]; exact hes⟩, ?_, rfl⟩, ?_⟩
  · unfold Witness.norm Witness.ofStack
    have hv : (Witness.read true s).1.valid = true := hg
    have hz : (Witness.read true s).1.size = stackSize (Witness.read true s).1.stack := rfl
    generalize (Witness.read true s).1 = w at *
    obtain ⟨a, b, c⟩ := w
    simp only at hv hz
    subst hv hz
    rfl
  · rw [henc]; exact hfin

/-! ### input, output -/

def Input.norm0 (i : Input) : Input :=
  { i with point := i.point.norm, script := i.script.norm, witness := Witness.empty, valid := true }

theorem fwd_input {i : Input} (h : i.script.Writable) : FwdU Input.read i.toData i.norm0 := by
  unfold Input.read Input.toData
  refine (fwd_point i.point).U.bind ((fwd_script h).bind ((fwd_readU32 i.sequence).U.bind0 ?_))
  exact FwdU.done _

theorem bwd_input : BwdU Input.read (fun i b => i.script.Writable ∧ i = i.norm0 ∧ b = i.toData) := by
  unfold Input.read
  refine (bwd_point.U.bind fun p => bwd_script.bind fun sc => bwd_readU32.U.bind fun q =>
    bwd_isGood.U.bind fun v => .pure _).mono ?_
  rintro i b ⟨p, a, b1, rfl, ⟨hp, rfl⟩, sc, a1, b2, rfl, ⟨hsc, hv, rfl⟩, q, a2, b3, rfl, rfl, v, a3, b4, rfl,
    ⟨rfl, rfl⟩, rfl, rfl⟩
  refine ⟨hsc, ?_, by simp [Input.toData]⟩
  cases p; cases sc
  simp only at hp hv
  subst hp hv
  rfl

def Output.norm (o : Output) : Output := { o with script := o.script.norm, valid := true }

theorem fwd_output {o : Output} (h : o.script.Writable) : FwdU Output.read o.toData o.norm := by
  unfold Output.read Output.toData
  exact (fwd_readU64 o.value).U.bind ((fwd_script h).bind0 (FwdU.done _))

theorem bwd_output : BwdU Output.read (fun o b => o.script.Writable ∧ o = o.norm ∧ b = o.toData) := by
  unfold Output.read
  refine (bwd_readU64.U.bind fun p => bwd_script.bind fun sc => bwd_isGood.U.bind fun v => .pure _).mono ?_
  rintro i b ⟨p, a, b1, rfl, rfl, sc, a1, b2, rfl, ⟨hsc, hv, rfl⟩, v, a3, b4, rfl, ⟨rfl, rfl⟩, rfl, rfl⟩
  refine ⟨hsc, ?_, by simp [Output.toData]⟩
  cases sc
  simp only at hv
  subst hv
  rfl

/-! ### counted lists -/

theorem fwd_readN {α} {p : Reader α} {enc : α → Bytes} {g : α → α} : ∀ (xs : List α),
    (∀ x ∈ xs, FwdU p (enc x) (g x)) → FwdU (readN p xs.length) (xs.flatMap enc) (xs.map g) := by
  intro xs
  induction xs with
  | nil => intro _; exact FwdU.pure []
  | cons x xs ih =>
    intro h
    exact (h x (by simp)).bind ((ih fun y hy => h y (by simp [hy])).bind0 (FwdU.pure _))

theorem bwd_readN {α} {p : Reader α} {P : α → Prop} {enc : α → Bytes}
    (h : BwdU p (fun x b => P x ∧ b = enc x)) : ∀ n, BwdU (readN p n) (fun xs b =>
      xs.length = n ∧ (∀ x ∈ xs, P x) ∧ b = xs.flatMap enc) := by
  intro n
  induction n with
  | zero => exact (BwdU.pure []).mono (by rintro _ _ ⟨rfl, rfl⟩; simp)
  | succ n ih =>
    refine (h.bind fun e => ih.bind fun es => BwdU.pure (e :: es)).mono ?_
    rintro y b ⟨e, a, b1, rfl, ⟨he, rfl⟩, es, a1, b2, rfl, ⟨hl, hes, rfl⟩, rfl, rfl⟩
    refine ⟨by simp [hl], ?_, by simp⟩
    intro x hx
    rcases List.mem_cons.mp hx with rfl | hx
    · exact he
    · exact hes x hx

theorem fwd_readPuts {α} {p : Reader α} {enc : α → Bytes} {g : α → α} (xs : List α)
    (hc : xs.length ≤ maxCount) (h : ∀ x ∈ xs, FwdU p (enc x) (g x)) :
    FwdU (readPuts p) (writeVariable xs.length ++ xs.flatMap enc) (xs.map g) :=
  (fwd_readSize maxCount xs.length (by have : maxCount = 1000000 := rfl; omega) hc).U.bind (fwd_readN xs h)

theorem bwd_readPuts {α} {p : Reader α} {P : α → Prop} {enc : α → Bytes}
    (h : BwdU p (fun x b => P x ∧ b = enc x)) : BwdU (readPuts p) (fun xs b =>
      xs.length ≤ maxCount ∧ (∀ x ∈ xs, P x) ∧ b = writeVariable xs.length ++ xs.flatMap enc) := by
  refine ((bwd_readSize maxCount).U.bind fun n => bwd_readN h n).mono ?_
  rintro xs b ⟨n, a, b1, rfl, ⟨rfl, _, hn⟩, rfl, hP, rfl⟩
  exact ⟨hn, hP, rfl⟩

/-! ### transaction -/

def Input.norm (seg : Bool) (i : Input) : Input :=
  { i.norm0 with witness := if seg then i.witness.norm else Witness.empty }

def Tx.norm (t : Tx) : Tx :=
  { t with inputs := t.inputs.map (Input.norm t.segregated), outputs := t.outputs.map Output.norm, valid := true }

theorem fwd_readWitnesses : ∀ (is : List Input), (∀ i ∈ is, i.witness.Writable) →
    FwdU (readWitnesses (is.map Input.norm0)) (is.flatMap fun i => i.witness.toData true)
      (is.map (Input.norm true), segregatedInputs is) := by
  intro is
  induction is with
  | nil => intro _; exact FwdU.pure _
  | cons i is ih =>
    intro h
    exact (fwd_witness (h i (by simp))).U.bind ((ih fun y hy => h y (by simp [hy])).bind0 (FwdU.pure _))

theorem bwd_readWitnesses : ∀ (is : List Input), BwdU (readWitnesses is) (fun r b =>
    r.1.length = is.length ∧ r.1.map (fun i => { i with witness := Witness.empty }) =
      is.map (fun i => { i with witness := Witness.empty }) ∧
    (∀ i ∈ r.1, i.witness.Writable ∧ i.witness = i.witness.norm) ∧ r.2 = segregatedInputs r.1 ∧
    b = r.1.flatMap fun i => i.witness.toData true) := by
  intro is
  induction is with
  | nil => exact (BwdU.pure _).mono (by rintro _ _ ⟨rfl, rfl⟩; simp [segregatedInputs])
  | cons i is ih =>
    refine (bwd_witness.U.bind fun w => ih.bind fun r => BwdU.pure _).mono ?_
    rintro y b ⟨w, a, b1, rfl, ⟨hw, hn, rfl⟩, r, a1, b2, rfl, ⟨hl, hm, hr, hs, rfl⟩, rfl, rfl⟩
    refine ⟨by simp [hl], by simp [hm], ?_, by simp [segregatedInputs, hs], by simp⟩
    intro x hx
    rcases List.mem_cons.mp hx with rfl | hx
    · exact ⟨hw, hn⟩
    · exact hr x hx

theorem fwd_invalidateIf : FwdU (invalidateIf false) [] () := by
  intro s hs hg hu _
  exact ⟨rfl, rfl, rfl, rfl, rfl, hu⟩

theorem bwd_invalidateIf (b : Bool) : BwdU (invalidateIf b) (fun _ bs => b = false ∧ bs = []) := by
  cases b with
  | false => exact ⟨⟨fun _ h => h, fun _ _ => rfl, fun _ _ => rfl, fun _ h => h⟩,
      fun s _ hu hg => ⟨hg, [], List.nil_prefix, ⟨rfl, rfl⟩, ⟨rfl, rfl, rfl, rfl, hu⟩⟩⟩
  | true => exact ⟨tame_invalidate, fun s _ _ hg => by cases hg⟩

theorem FwdU.detect_none {α} {is : List Input} (h : is ≠ []) {f : Bool → Reader α} {bs : Bytes} {y : α}
    (hf : FwdU (f false) bs y) : FwdU (detectWitness is >>= f) bs y := by
  intro s hs hg hu hp
  have : detectWitness is s = (false, s) := by
    unfold detectWitness
    rw [if_neg (by simpa using h)]
  rw [bind_run, this]
  exact hf s hs hg hu hp

/-- The peek looks at the next byte without consuming it. -/
theorem FwdU.detect {α} {f : Bool → Reader α} {c : UInt8} {bs : Bytes} {y : α}
    (hf : FwdU (f (c == 1)) (c :: bs) y) : FwdU (detectWitness [] >>= f) (c :: bs) y := by
  intro s hs hg hu hp
  have hl := hp.length_le
  rw [s.rest_length] at hl
  simp only [List.length_cons] at hl
  have hrem : s.rem ≠ 0 := by unfold RS.Unl at hu; omega
  have : detectWitness [] s = (c == 1, s) := by
    unfold detectWitness peekByte
    simp only [List.length_nil, if_true, hrem, if_false, hg, Bool.true_and, decide_eq_true_eq]
    rw [if_pos (by omega)]
    obtain ⟨t, ht⟩ := hp
    rw [← ht]; rfl
  rw [bind_run, this]
  exact hf s hs hg hu hp

theorem tame_detect (is : List Input) : Tame (detectWitness is) := by
  have t := tame_peekByte
  constructor
  all_goals intro s h
  all_goals unfold detectWitness
  · split
    · exact t.ok s h
    · exact h
  · split
    · exact t.data s h
    · rfl
  · split
    · exact t.ub s h
    · rfl
  · split
    · exact t.sticky s h
    · exact h

/-- Backward step through the peek. -/
theorem BwdU.detect {α} {is : List Input} {f : Bool → Reader α} {R : Bool → α → Bytes → Prop}
    (hf : ∀ b, BwdU (f b) (R b)) :
    BwdU (detectWitness is >>= f) (fun y b => ∃ flag, R flag y b ∧ (flag = true → is = [] ∧ ∀ c t, b = c :: t → c = 1) ∧
      ((is = [] ∧ flag = false) → ∀ t, b ≠ 1 :: t)) := by
  refine ⟨(tame_detect is).bind fun x => (hf x).tame, ?_⟩
  intro s hs hu hg
  rw [bind_run] at hg ⊢
  by_cases hi : is = []
  · subst hi
    by_cases hrem : s.rem = 0
    · exfalso
      have : (detectWitness [] s).2.good = false := by simp [detectWitness, peekByte, hrem]
      rw [(hf _).tame.sticky _ this] at hg; cases hg
    · by_cases hok : s.good && decide (s.pos < s.data.length)
      · have hd : detectWitness [] s = (s.rest.headD 0 == 1, s) := by
          unfold detectWitness peekByte
          simp only [List.length_nil, if_true, hrem, if_false]
          rw [if_pos hok]
        rw [hd] at hg ⊢
        obtain ⟨g, b, hp, hr, hm⟩ := (hf _).back s hs hu hg
        refine ⟨g, b, hp, ⟨_, hr, fun hfl => ⟨rfl, ?_⟩, ?_⟩, hm⟩
        · rintro c t rfl
          obtain ⟨u, hu⟩ := hp
          rw [← hu] at hfl
          simpa using hfl
        · rintro ⟨_, hfl⟩ t rfl
          obtain ⟨u, hu⟩ := hp
          rw [← hu] at hfl
          simp at hfl
      · exfalso
        have : (detectWitness [] s).2.good = false := by
          unfold detectWitness peekByte
          simp only [List.length_nil, if_true, hrem, if_false]
          rw [if_neg hok]
        rw [(hf _).tame.sticky _ this] at hg; cases hg
  · have hd : detectWitness is s = (false, s) := by
      unfold detectWitness
      rw [if_neg (by simpa using hi)]
    rw [hd] at hg ⊢
    obtain ⟨g, b, hp, hr, hm⟩ := (hf _).back s hs hu hg
    exact ⟨g, b, hp, ⟨_, hr, by simp, fun h => absurd h.1 hi⟩, hm⟩

theorem doSkip_one_fwd (b : UInt8) : Fwd (doSkip 1) [b] () := by
  intro s hs hg hp
  have hne : (isExhausted s).1 = false := by
    rw [Bool.eq_false_iff]
    intro h
    rcases isExhausted_iff.mp h with h | h
    · rw [hg] at h; cases h
    · rw [h] at hp; have := hp.length_le; simp at this
  rw [doSkip_one hne]; rfl

theorem bwd_doSkip_one : Bwd (doSkip 1) (fun _ bs => ∃ b, bs = [b]) where
  tame := tame_doSkip (by decide)
  back s hs hg := by
    rcases Bool.eq_false_or_eq_true (isExhausted s).1 with he | he
    · exfalso
      rcases isExhausted_iff.mp he with h | h
      · rw [(tame_doSkip (by decide)).sticky s h] at hg; cases hg
      · have hl := s.view_length
        rw [h] at hl
        rcases Bool.eq_false_or_eq_true s.good with hgd | hgd
        · simp only [doSkip, noteSize_small (by decide : 1 < offMax), hgd, if_true] at hg
          simp only [List.length_nil] at hl
          split at hg
          · cases hg
          · rw [if_neg (by omega), if_pos (by omega)] at hg; cases hg
        · rw [(tame_doSkip (by decide)).sticky s hgd] at hg; cases hg
    · have hg0 := (isExhausted_false he).1
      rw [doSkip_one he]
      match hv : s.view with
      | [] => exact absurd (isExhausted_iff.mpr (.inr hv)) (by rw [he]; simp)
      | b :: t => exact ⟨hg0, [b], ⟨t, rfl⟩, ⟨b, rfl⟩, rfl⟩

theorem writeVariable_zero : writeVariable 0 = [0] := rfl

/-- First byte of a count. -/
theorem writeVariable_cons (n : Nat) : ∃ c t, writeVariable n = c :: t ∧ ((c == 1) = true → n = 1) := by
  unfold writeVariable
  by_cases h1 : n < 0xfd
  · rw [if_pos h1]
    refine ⟨_, _, rfl, ?_⟩
    intro h
    have := congrArg UInt8.toNat (eq_of_beq h)
    rw [UInt8.toNat_ofNat'] at this
    simp at this; omega
  · rw [if_neg h1]
    by_cases h2 : n ≤ 0xffff
    · rw [if_pos h2]; exact ⟨_, _, rfl, fun h => absurd h (by decide)⟩
    · rw [if_neg h2]
      by_cases h3 : n ≤ 0xffffffff
      · rw [if_pos h3]; exact ⟨_, _, rfl, fun h => absurd h (by decide)⟩
      · rw [if_neg h3]; exact ⟨_, _, rfl, fun h => absurd h (by decide)⟩

theorem fwd_tx {t : Tx} (h : t.Writable) : FwdU (Tx.read true) (t.toData true) t.norm := by
  have hin : ∀ i ∈ t.inputs, FwdU Input.read i.toData i.norm0 := fun i hi => fwd_input (h.inScripts i hi)
  have hout : ∀ o ∈ t.outputs, FwdU Output.read o.toData o.norm := fun o ho => fwd_output (h.outScripts o ho)
  have hI := fwd_readPuts t.inputs h.inCount hin
  have hO := fwd_readPuts t.outputs h.outCount hout
  have hL := (fwd_readU32 t.locktime).U
  unfold Tx.read Tx.toData
  refine (fwd_readU32 t.version).U.bind ?_
  cases hseg : t.segregated with
  | true =>
    have hw := fwd_readWitnesses t.inputs (h.witnesses hseg)
    have hany : segregatedInputs t.inputs = true := by rw [← h.segregated, hseg]
    rw [hany] at hw
    simp only [Bool.true_and, if_true]
    have h0 := fwd_readPuts (p := Input.read) (enc := Input.toData) (g := Input.norm0) []
      (by decide) (by simp)
    refine (h0.bind (b := 1 :: (writeVariable t.inputs.length ++ (t.inputs.flatMap Input.toData ++
      (writeVariable t.outputs.length ++ (t.outputs.flatMap Output.toData ++
      (t.inputs.flatMap (fun i => i.witness.toData true) ++ writeU32 t.locktime)))))) (y := t.norm) ?_).congr
      (by simp [writeVariable_zero]) rfl
    refine FwdU.detect ?_
    simp only [List.map_nil, beq_self_eq_true, if_true]
    refine ((doSkip_one_fwd 1).U.bind (hI.bind (hO.bind (hw.bind (b := writeU32 t.locktime) ?_)))).congr
      (b := 1 :: (writeVariable t.inputs.length ++ (t.inputs.flatMap Input.toData ++
      (writeVariable t.outputs.length ++ (t.outputs.flatMap Output.toData ++
      (t.inputs.flatMap (fun i => i.witness.toData true) ++ writeU32 t.locktime)))))) (by simp) rfl
    refine (fwd_invalidateIf.bind (hL.bind0 (FwdU.done _))).congr (by simp) ?_
    unfold Tx.norm; rw [hseg]
  | false =>
    simp only [Bool.and_false, Bool.false_eq_true, if_false, List.nil_append]
    have htail : FwdU (do
        let outputs ← readPuts Output.read
        let locktime ← readU32
        let valid ← isGood
        return { version := t.version, inputs := t.inputs.map Input.norm0, outputs, locktime, segregated := false, valid : Tx })
        (writeVariable t.outputs.length ++ (t.outputs.flatMap Output.toData ++ writeU32 t.locktime)) t.norm := by
      refine (hO.bind (hL.bind0 (FwdU.done _))).congr (by simp) ?_
      unfold Tx.norm; rw [hseg]
      simp only [Tx.mk.injEq, true_and, and_true]
      rfl
    by_cases hi : t.inputs = []
    · have hone := h.unambiguous hi
      obtain ⟨c, u, hc, hc1⟩ := writeVariable_cons t.outputs.length
      have hcf : (c == 1) = false := by
        rw [Bool.eq_false_iff]; intro hh; exact hone (hc1 hh)
      refine (hI.bind (b := writeVariable t.outputs.length ++ (t.outputs.flatMap Output.toData ++ writeU32 t.locktime))
        (y := t.norm) ?_).congr (by simp) rfl
      rw [hi] at htail ⊢
      rw [hc] at htail ⊢
      simp only [List.map_nil, List.cons_append] at htail ⊢
      refine FwdU.detect ?_
      rw [hcf]
      simp only [Bool.false_eq_true, if_false]
      exact htail
    · refine (hI.bind (b := writeVariable t.outputs.length ++ (t.outputs.flatMap Output.toData ++ writeU32 t.locktime))
        (y := t.norm) ?_).congr (by simp) rfl
      refine FwdU.detect_none (by simpa using hi) ?_
      simp only [Bool.false_eq_true, if_false]
      exact htail

theorem bwd_inputs : BwdU (readPuts Input.read) (fun is b => is.length ≤ maxCount ∧
    (∀ i ∈ is, i.script.Writable ∧ i = i.norm0) ∧ b = writeVariable is.length ++ is.flatMap Input.toData) :=
  bwd_readPuts (bwd_input.mono (by rintro _ _ ⟨h1, h2, h3⟩; exact ⟨⟨h1, h2⟩, h3⟩))

theorem bwd_outputs : BwdU (readPuts Output.read) (fun is b => is.length ≤ maxCount ∧
    (∀ i ∈ is, i.script.Writable ∧ i = i.norm) ∧ b = writeVariable is.length ++ is.flatMap Output.toData) :=
  bwd_readPuts (bwd_output.mono (by rintro _ _ ⟨h1, h2, h3⟩; exact ⟨⟨h1, h2⟩, h3⟩))

/-- The two branches of `transaction::from_data` as separate readers. -/
def txWitnessed (version : UInt32) (witness : Bool) : Reader Tx := do
  doSkip 1
  let inputs ← readPuts Input.read
  let outputs ← readPuts Output.read
  let r ← (if witness then readWitnesses inputs
           else do let f ← skipWitnesses inputs; return (inputs, f))
  invalidateIf (!r.2)
  let locktime ← readU32
  let valid ← isGood
  return { version, inputs := r.1, outputs, locktime, segregated := witness, valid }

def txPlain (version : UInt32) (inputs : List Input) : Reader Tx := do
  let outputs ← readPuts Output.read
  let locktime ← readU32
  let valid ← isGood
  return { version, inputs, outputs, locktime, segregated := false, valid }

theorem Tx.read_eq (witness : Bool) : Tx.read witness = (do
    let version ← readU32
    let inputs ← readPuts Input.read
    let hasWitness ← detectWitness inputs
    if hasWitness then txWitnessed version witness else txPlain version inputs) := rfl

theorem outputs_norm {os : List Output} (ho : ∀ o ∈ os, o.script.Writable ∧ o = o.norm) : os.map Output.norm = os := by
  conv => rhs; rw [← List.map_id os]
  exact List.map_congr_left fun o hh => ((ho o hh).2).symm

theorem bwd_txPlain (version : UInt32) (inputs : List Input) : BwdU (txPlain version inputs) (fun t b =>
    t.version = version ∧ t.inputs = inputs ∧ t.segregated = false ∧ t.valid = true ∧ t.outputs.length ≤ maxCount ∧
    (∀ o ∈ t.outputs, o.script.Writable ∧ o = o.norm) ∧
    b = writeVariable t.outputs.length ++ (t.outputs.flatMap Output.toData ++ writeU32 t.locktime)) := by
  unfold txPlain
  refine (bwd_outputs.bind fun outputs => bwd_readU32.U.bind fun locktime =>
    bwd_isGood.U.bind fun valid => BwdU.pure _).mono ?_
  rintro t b ⟨outputs, a3, b4, rfl, ⟨hc2, ho, rfl⟩, locktime, a6, b7, rfl, rfl, valid, a7, b8, rfl, ⟨rfl, rfl⟩, rfl, rfl⟩
  exact ⟨rfl, rfl, rfl, rfl, hc2, ho, by simp⟩

theorem bwd_txWitnessed (version : UInt32) : BwdU (txWitnessed version true) (fun t b =>
    t.version = version ∧ t.segregated = true ∧ t.valid = true ∧ t.outputs.length ≤ maxCount ∧
    t.inputs.length ≤ maxCount ∧ (∀ i ∈ t.inputs, i.script.Writable ∧ i = i.norm true ∧ i.witness.Writable) ∧
    segregatedInputs t.inputs = true ∧
    (∀ o ∈ t.outputs, o.script.Writable ∧ o = o.norm) ∧ ∃ c,
    b = c :: (writeVariable t.inputs.length ++ (t.inputs.flatMap Input.toData ++ (writeVariable t.outputs.length ++
      (t.outputs.flatMap Output.toData ++ (t.inputs.flatMap (fun i => i.witness.toData true) ++ writeU32 t.locktime)))))) := by
  unfold txWitnessed
  simp only [if_true]
  refine (bwd_doSkip_one.U.bind fun _ => bwd_inputs.bind fun inputs => bwd_outputs.bind fun outputs =>
    (bwd_readWitnesses inputs).bind fun r => (bwd_invalidateIf (!r.2)).bind fun _ => bwd_readU32.U.bind fun locktime =>
    bwd_isGood.U.bind fun valid => BwdU.pure _).mono ?_
  rintro t b ⟨_, a1, b2, rfl, ⟨c, rfl⟩, inputs, a2, b3, rfl, ⟨hc1, hi1, rfl⟩, outputs, a3, b4, rfl,
    ⟨hc2, ho, rfl⟩, r, a4, b5, rfl, ⟨hrl, hrm, hrw, hrs, rfl⟩, _, a5, b6, rfl, ⟨hns, rfl⟩, locktime, a6, b7, rfl, rfl, valid, a7, b8, rfl,
    ⟨rfl, rfl⟩, rfl, rfl⟩
  have hfm : inputs.flatMap Input.toData = r.1.flatMap Input.toData := by
    have e : ∀ l : List Input, l.flatMap Input.toData =
        (l.map (fun i => { i with witness := Witness.empty })).flatMap Input.toData := by
      intro l; rw [List.flatMap_map]; rfl
    rw [e inputs, e r.1, hrm]
  refine ⟨rfl, rfl, rfl, hc2, by rw [hrl]; exact hc1, ?_, by rw [← hrs]; simpa using hns, ho, c, by simp [hrl, hfm]⟩
  intro i hi
  have hmem : { i with witness := Witness.empty } ∈ r.1.map (fun i => { i with witness := Witness.empty }) :=
    List.mem_map_of_mem hi
  rw [hrm] at hmem
  obtain ⟨j, hj, hje⟩ := List.mem_map.mp hmem
  obtain ⟨hjs, hjn⟩ := hi1 j hj
  obtain ⟨hw, hwn⟩ := hrw i hi
  clear hi1 hrw hmem hrm hfm hi hj
  obtain ⟨jp, js, jw, jq, jv⟩ := j
  obtain ⟨ip, is, iw, iq, iv⟩ := i
  simp only [Input.mk.injEq] at hje
  obtain ⟨rfl, rfl, -, rfl, rfl⟩ := hje
  unfold Input.norm0 at hjn
  simp only [Input.mk.injEq] at hjn
  obtain ⟨hj1, hj2, -, -, hj5⟩ := hjn
  simp only at hw hwn hjs
  refine ⟨hjs, ?_, hw⟩
  unfold Input.norm Input.norm0
  simp only [if_true, Input.mk.injEq]
  exact ⟨hj1, hj2, hwn, trivial, hj5⟩

theorem bwd_tx : BwdU (Tx.read true) (fun t b => t.Writable ∧ t = t.norm ∧ b = t.toData true) := by
  rw [Tx.read_eq]
  refine (bwd_readU32.U.bind fun version => bwd_inputs.bind fun inputs0 => BwdU.detect fun flag =>
    BwdU.ite (c := flag = true) (bwd_txWitnessed version) (bwd_txPlain version inputs0)).mono ?_
  rintro t b ⟨version, a, b0, rfl, rfl, inputs0, a0, b1, rfl, ⟨hc0, hi0, rfl⟩, flag, hcase, hfl, hfl2⟩
  rcases hcase with ⟨rfl, h1, h2, h3, h4, h5, h6, h7, h8, c, rfl⟩ | ⟨hflag, h1, h2, h3, h4, h5, h6, rfl⟩
  · obtain ⟨rfl, hone⟩ := hfl rfl
    have hc : c = 1 := hone c _ rfl
    subst hc
    refine ⟨⟨fun i hi => (h6 i hi).1, fun o ho => (h8 o ho).1, h5, h4, fun _ i hi => (h6 i hi).2.2,
      by rw [h2, h7], ?_⟩, ?_, ?_⟩
    · intro he; rw [he] at h7; simp [segregatedInputs] at h7
    · have hin : t.inputs.map (Input.norm t.segregated) = t.inputs := by
        rw [h2]
        conv => rhs; rw [← List.map_id t.inputs]
        exact List.map_congr_left fun i hi => ((h6 i hi).2.1).symm
      unfold Tx.norm
      rw [hin, outputs_norm h8]
      cases t
      simp only at h3
      rw [h3]
    · unfold Tx.toData
      simp [h1, h2, writeVariable_zero]
  · have hff : flag = false := by simpa using hflag
    have hempty : ∀ i ∈ t.inputs, i.witness = Witness.empty := by
      intro i hi
      rw [h2] at hi
      rw [(hi0 i hi).2]; rfl
    have hsegF : segregatedInputs t.inputs = false := by
      unfold segregatedInputs
      rw [List.any_eq_false]
      intro i hi
      rw [hempty i hi]; simp [Witness.empty]
    refine ⟨⟨fun i hi => (hi0 i (by rw [← h2]; exact hi)).1, fun o ho => (h6 o ho).1, by rw [h2]; exact hc0, h5,
      (fun hs => by rw [h3] at hs; cases hs), (by rw [h3, hsegF]), ?_⟩, ?_, ?_⟩
    · intro he hone
      refine hfl2 ⟨by rw [← h2]; exact he, hff⟩ (t.outputs.flatMap Output.toData ++ writeU32 t.locktime) ?_
      rw [hone]; rfl
    · have hin : t.inputs.map (Input.norm t.segregated) = t.inputs := by
        rw [h3]
        conv => rhs; rw [← List.map_id t.inputs]
        refine List.map_congr_left fun i hi => ?_
        have := (hi0 i (by rw [← h2]; exact hi)).2
        unfold Input.norm
        simp only [Bool.false_eq_true, if_false]
        conv => rhs; rw [id, this]
        rfl
      unfold Tx.norm
      rw [hin, outputs_norm h6]
      cases t
      simp only at h4
      rw [h4]
    · unfold Tx.toData
      simp [h1, h2, h3]

end Verif
