import Verif.Lemmas.Codec2
/-!
# Properties C04 – C07: scripts, operations and witnesses on the wire

`Script.read false (RS.init d)` is `script(d, false)`: parse the whole buffer `d` without size prefix.
-/
namespace Verif

theorem init_ok {d : Bytes} (h : d.length < 2 ^ 63) : (RS.init d).OK := ⟨Nat.zero_le _, h⟩

/-! ## C04 -/

/-- Every byte string parses as a valid script, which serializes to the same bytes and reports their number
as its size; the parser stays inside its contract and consumes the whole buffer. -/
theorem C04_any_bytes_are_a_script (d : Bytes) (hd : d.length < 2 ^ 63) :
    let r := Script.read false (RS.init d)
    r.1.valid = true ∧ r.1.toData false = d ∧ r.1.serializedSize false = d.length ∧
    r.2.good = true ∧ r.2.pos = d.length ∧ r.2.ub = false := by
  obtain ⟨h1, h2, h3, h4, h5, h6, h7, h8⟩ := Script.read_unprefixed (init_ok hd) rfl rfl
  exact ⟨h1, h3, h4, h5, h6, h8⟩

/-- The operations found are complete, up to a possible final underflow that is not the start of any complete
operation: the parser never gives up on bytes it could have parsed. -/
theorem C04_operations_are_complete (d : Bytes) (hd : d.length < 2 ^ 63) :
    OpsOK (Script.read false (RS.init d)).1.ops :=
  (Script.read_unprefixed (init_ok hd) rfl rfl).2.1

/-- Non-vacuity: a push of two bytes, then a push declaring three bytes of which only one is there. -/
example : (Script.read false (RS.init [2, 0xaa, 0xbb, 3, 0xcc])).1.ops =
    [{ code := 2, data := [0xaa, 0xbb], underflow := false },
     { code := anyInvalid, data := [3, 0xcc], underflow := true }] := by rfl

/-! ## C06 -/

/-- A list of operations each of whose data size agrees with its opcode parses back to itself. -/
theorem C06_operations_roundtrip (ops : List Op) (h : ∀ o ∈ ops, o.Consistent)
    (hl : (opsData ops).length < 2 ^ 63) :
    (Script.read false (RS.init (opsData ops))).1.ops = ops := by
  have hok : OpsOK ops := by
    clear hl
    induction ops with
    | nil => exact .nil
    | cons o os ih => exact .cons o os (h o (by simp)) (ih fun x hx => h x (by simp [hx]))
  obtain ⟨_, h2, h3, _⟩ := Script.read_unprefixed (init_ok hl) rfl rfl
  have hv : (RS.init (opsData ops)).view = opsData ops := by
    unfold RS.view RS.rest RS.init
    simp only [List.drop_zero]
    have hmax : maxSize = 2 ^ 64 - 1 := rfl
    exact List.take_of_length_le (by omega)
  have hrep : (RS.init (opsData ops)).Rep := Nat.le_refl _
  have e1 := readOps_fwd _ hok ((opsData ops).length + 1) _ (init_ok hl) rfl hrep (by rw [hv]; omega) hv
  have e2 := readOps_fwd _ h2 ((opsData ops).length + 1) _ (init_ok hl) rfl hrep (by rw [hv]; omega)
    (by rw [hv, h3]; rfl)
  exact e2.symm.trans e1

/-- Distinct lists of consistent operations have distinct serializations. -/
theorem C06_operations_injective (a b : List Op) (ha : ∀ o ∈ a, o.Consistent) (hb : ∀ o ∈ b, o.Consistent)
    (hl : (opsData a).length < 2 ^ 63) (h : opsData a = opsData b) : a = b := by
  rw [← C06_operations_roundtrip a ha hl, ← C06_operations_roundtrip b hb (by rw [← h]; exact hl), h]

/-- Non-vacuity: a push of two bytes through OP_PUSHDATA1 and a non-push operation. -/
example : ∀ o ∈ [({ code := 76, data := [1, 2] } : Op), { code := 172 }], o.Consistent := by
  intro o ho
  simp only [List.mem_cons, List.not_mem_nil, or_false] at ho
  rcases ho with rfl | rfl
  · exact ⟨rfl, by simp [SizeFits], by decide⟩
  · exact ⟨rfl, by simp [SizeFits], by decide⟩

/-! ## C05 -/

/-- Specification of the acceptance of a prefixed script: the stream starts with the canonical encoding of a
size, followed by at least that many bytes. -/
def PrefixFits (stream : Bytes) (n : Nat) : Prop :=
  ∃ tail, stream = writeVariable n ++ tail ∧ n ≤ tail.length ∧ n < 2 ^ 64

/-- Reading a prefixed script at any position of any buffer succeeds iff the stream starts with a canonical
size followed by that many bytes. -/
theorem C05_prefixed_accept_iff (s : RS) (hpos : s.pos ≤ s.data.length) (hlen : s.data.length < 2 ^ 63)
    (hgood : s.good = true) (hlim : s.rem = maxSize) :
    (Script.read true s).2.good = true ↔ ∃ n, PrefixFits s.rest n := by
  have hs : s.OK := ⟨hpos, hlen⟩
  have hmax : maxSize = 2 ^ 64 - 1 := rfl
  have hu : s.Unl := by unfold RS.Unl; omega
  constructor
  · intro hg
    by_cases h : (readSize maxSize s).2.good = false ∨
      (readSize maxSize s).2.data.length - (readSize maxSize s).2.pos < (readSize maxSize s).1
    · have := (Script.read_prefixed_bad hs h).2.1
      rw [this] at hg; cases hg
    · rw [not_or, Bool.not_eq_false] at h
      obtain ⟨g, b, hp, ⟨rfl, hlt, hle⟩, hst⟩ := (bwd_readSize maxSize).back s hs h.1
      rw [hu.view] at hp
      obtain ⟨t, ht⟩ := hp
      refine ⟨_, t, ht.symm, ?_, hlt⟩
      have hfit := h.2
      rw [show (readSize maxSize s).2.data.length - (readSize maxSize s).2.pos =
        (readSize maxSize s).2.rest.length from (RS.rest_length _).symm] at hfit
      rw [hst, RS.rest_adv, ← ht, List.drop_left] at hfit
      omega
  · rintro ⟨n, t, ht, hn, h64⟩
    have hrd := fwd_readSize maxSize n (by omega) (by omega) s hs hgood (by rw [hu.view, ht]; exact List.prefix_append _ _)
    have := Script.read_prefixed_ok hs n (by rw [hrd]) (by rw [hrd]; exact hgood) (by
      rw [hrd]
      have : (s.adv (writeVariable n).length).rest.length = (s.adv (writeVariable n).length).data.length -
        (s.adv (writeVariable n).length).pos := RS.rest_length _
      rw [← this, RS.rest_adv, ht, List.drop_left]
      exact hn)
    rw [this.2.2.2.2]
    show (readSize maxSize s).2.good = true
    rw [hrd]; exact hgood

/-- When it succeeds, it has consumed exactly the prefix and the declared bytes, the script is the one parsed
from those bytes alone, it serializes to exactly the consumed bytes, and the reader is left without a limit. -/
theorem C05_prefixed_consumes_exactly (s : RS) (hpos : s.pos ≤ s.data.length) (hlen : s.data.length < 2 ^ 63)
    (hgood : s.good = true) (hlim : s.rem = maxSize) (n : Nat) (tail : Bytes)
    (hs : s.rest = writeVariable n ++ tail) (hn : n ≤ tail.length) :
    let r := Script.read true s
    r.1 = (Script.read false (RS.init (tail.take n))).1 ∧ r.1.toData true = writeVariable n ++ tail.take n ∧
    r.2.pos = s.pos + (writeVariable n).length + n ∧ r.2.rest = tail.drop n ∧ r.2.rem = maxSize ∧
    r.2.good = true ∧ r.2.ub = s.ub := by
  have ok : s.OK := ⟨hpos, hlen⟩
  have hmax : maxSize = 2 ^ 64 - 1 := rfl
  have hu : s.Unl := by unfold RS.Unl; omega
  have hrl := s.rest_length
  have hl2 := congrArg List.length hs
  rw [List.length_append] at hl2
  have hrd := fwd_readSize maxSize n (by omega) (by omega) s ok hgood (by rw [hu.view, hs]; exact List.prefix_append _ _)
  obtain ⟨k1, k2, k3, k4, k5⟩ := Script.read_prefixed_ok ok n (by rw [hrd]) (by rw [hrd]; exact hgood) (by
      rw [hrd]
      have : (s.adv (writeVariable n).length).rest.length = (s.adv (writeVariable n).length).data.length -
        (s.adv (writeVariable n).length).pos := RS.rest_length _
      rw [← this, RS.rest_adv, hs, List.drop_left]
      exact hn)
  rw [hrd] at k2 k5
  simp only [RS.rest_adv, hs, List.drop_left] at k2
  have hd : (tail.take n).length = n := by rw [List.length_take]; omega
  have hoff : (tail.take n).length < 2 ^ 63 := by omega
  obtain ⟨u1, u2, u3, u4, _⟩ := Script.read_unprefixed (init_ok hoff) rfl rfl
  have u3 : opsData (Script.read false (RS.init (tail.take n))).1.ops = tail.take n := u3
  have u4 : (Script.read false (RS.init (tail.take n))).1.size = (tail.take n).length := u4
  have hv : (RS.init (tail.take n)).view = tail.take n := by
    unfold RS.view RS.rest RS.init
    simp only [List.drop_zero]
    exact List.take_of_length_le (by omega)
  have hrep : (RS.init (tail.take n)).Rep := Nat.le_refl _
  have e1 := readOps_fwd _ k1 (n + 1) _ (init_ok hoff) rfl hrep (by rw [hv]; omega) (by rw [hv, k2])
  have e2 := readOps_fwd _ u2 (n + 1) _ (init_ok hoff) rfl hrep (by rw [hv]; omega) (by rw [hv, u3])
  have hops : (Script.read true s).1.ops = (Script.read false (RS.init (tail.take n))).1.ops := e1.symm.trans e2
  intro r
  refine ⟨?_, ?_, ?_, ?_, ?_, ?_, ?_⟩
  · show (Script.read true s).1 = _
    rw [hd] at u4
    have h2 := k3.trans u1.symm
    have h3 := k4.trans u4.symm
    clear_value r
    clear k1 k2 k3 k4 k5 u1 u2 u3 u4 e1 e2
    generalize (Script.read true s).1 = x at *
    generalize (Script.read false (RS.init (tail.take n))).1 = y at *
    cases x; cases y
    simp only at hops h2 h3
    subst hops h2 h3
    rfl
  · show (Script.read true s).1.toData true = _
    rw [Script.toData_true, k4, k2]
  · show (Script.read true s).2.pos = _
    rw [k5]; rfl
  · show (Script.read true s).2.rest = _
    rw [k5]
    show (s.data.drop (s.pos + (writeVariable n).length + n)) = _
    rw [← List.drop_drop, ← List.drop_drop]
    show (s.rest.drop _).drop n = _
    rw [hs, List.drop_left]
  · show (Script.read true s).2.rem = _
    rw [k5]
  · show (Script.read true s).2.good = _
    rw [k5]; exact hgood
  · show (Script.read true s).2.ub = _
    rw [k5]; rfl

/-- Non-vacuity: prefix 2 in front of three bytes. -/
example : PrefixFits [2, 0x51, 0x52, 0x53] 2 := ⟨[0x51, 0x52, 0x53], rfl, by decide, by decide⟩

/-! ## C07 -/

/-- A witness whose element count and sizes are within the parser's limits, written with its count prefix and
followed by anything, parses back to an equal stack and consumes exactly its bytes. -/
theorem C07_prefixed_roundtrip (w : Witness) (h : w.Writable) (rest : Bytes)
    (hl : (w.toData true ++ rest).length < 2 ^ 63) :
    let r := Witness.read true (RS.init (w.toData true ++ rest))
    r.1.stack = w.stack ∧ r.1.valid = true ∧ r.2.good = true ∧ r.2.rest = rest ∧
    r.1.serializedSize true = (w.toData true).length := by
  have hs := init_ok hl
  have hv : (RS.init (w.toData true ++ rest)).view = w.toData true ++ rest := by
    unfold RS.view RS.rest RS.init
    simp only [List.drop_zero]
    have hmax : maxSize = 2 ^ 64 - 1 := rfl
    exact List.take_of_length_le (by omega)
  have e := fwd_witness h _ hs rfl (by rw [hv]; exact List.prefix_append _ _)
  intro r
  have hr : r = _ := e
  rw [hr]
  refine ⟨rfl, rfl, rfl, ?_, ?_⟩
  · simp [RS.rest, RS.init]
  · have : (w.norm).toData true = w.toData true := rfl
    rw [← this]
    rw [List.length_append] at hl
    exact Witness.size_ok (w := w.norm) (show stackSize _ = stackSize _ from rfl) true (by rw [this]; omega)

/-- Conversely, any bytes accepted as a count-prefixed witness re-serialize to exactly the bytes consumed. -/
theorem C07_prefixed_canonical (s : RS) (hpos : s.pos ≤ s.data.length) (hlen : s.data.length < 2 ^ 63)
    (hlim : s.rem = maxSize) (hgood : (Witness.read true s).2.good = true) :
    s.rest = (Witness.read true s).1.toData true ++ (Witness.read true s).2.rest := by
  have hmax : maxSize = 2 ^ 64 - 1 := rfl
  have hu : s.Unl := by unfold RS.Unl; omega
  obtain ⟨g, b, hp, ⟨_, _, rfl⟩, hst⟩ := bwd_witness.back s ⟨hpos, hlen⟩ hgood
  rw [hu.view] at hp
  obtain ⟨t, ht⟩ := hp
  have : (Witness.read true s).2.rest = s.rest.drop ((Witness.read true s).1.toData true).length := by
    conv => lhs; rw [hst]
    rw [RS.rest_adv]
  rw [this]
  conv => rhs; rw [← ht, List.drop_left]
  exact ht.symm

theorem readElementsAll_fwd : ∀ (es : List Bytes), (∀ e ∈ es, e.length ≤ maxBytes) → ∀ (fuel : Nat) (s : RS),
    s.OK → s.good = true → s.view = es.flatMap encElement → s.view.length < fuel →
    (readElementsAll fuel s).1 = es ∧ (readElementsAll fuel s).2 = s.adv (es.flatMap encElement).length := by
  intro es
  induction es with
  | nil =>
    intro _ fuel s hs hg hv hf
    cases fuel with
    | zero => omega
    | succ fuel =>
      unfold readElementsAll
      have : (isExhausted s).1 = true := (isExhausted_iff).mpr (by simp [hv])
      rw [if_pos this]
      exact ⟨rfl, by simp [RS.adv]⟩
  | cons e es ih =>
    intro h fuel s hs hg hv hf
    cases fuel with
    | zero => omega
    | succ fuel =>
      have hlen : (encElement e).length ≠ 0 := by
        unfold encElement
        rw [List.length_append, writeVariable_length]
        have := variableSize_pos e.length
        omega
      have hne : ¬ (isExhausted s).1 = true := by
        rw [isExhausted_iff, hv]
        rintro (h | h)
        · rw [hg] at h; cases h
        · rw [List.flatMap_cons] at h
          have h := congrArg List.length h
          rw [List.length_append, List.length_nil] at h
          omega
      unfold readElementsAll
      rw [if_neg hne]
      have e1 := fwd_readElement (h e (by simp)) s hs hg (by rw [hv, List.flatMap_cons]; exact List.prefix_append _ _)
      rw [e1]
      have hp : encElement e <+: s.view := by rw [hv, List.flatMap_cons]; exact List.prefix_append _ _
      have hview : (s.adv (encElement e).length).view = es.flatMap encElement := by
        rw [RS.view_adv, hv, List.flatMap_cons, List.drop_left]
      obtain ⟨i1, i2⟩ := ih (fun x hx => h x (by simp [hx])) fuel (s.adv (encElement e).length)
        (RS.OK.adv hs hp.length_le) hg hview
        (by rw [hview]; rw [hv, List.flatMap_cons, List.length_append] at hf; omega)
      simp only [i1, i2]
      refine ⟨trivial, ?_⟩
      rw [RS.adv_adv, List.flatMap_cons, List.length_append]

/-- The same for the form without count prefix, which occupies the whole buffer. -/
theorem C07_unprefixed_roundtrip (w : Witness) (h : ∀ e ∈ w.stack, e.length ≤ maxBytes)
    (hl : (w.toData false).length < 2 ^ 63) :
    let r := Witness.read false (RS.init (w.toData false))
    r.1.stack = w.stack ∧ r.1.valid = true ∧ r.2.good = true ∧
    r.1.serializedSize false = (w.toData false).length := by
  have hv : (RS.init (w.toData false)).view = w.stack.flatMap encElement := by
    unfold RS.view RS.rest RS.init
    simp only [List.drop_zero]
    have hmax : maxSize = 2 ^ 64 - 1 := rfl
    rw [List.take_of_length_le (by omega)]; rfl
  obtain ⟨h1, h2⟩ := readElementsAll_fwd w.stack h ((RS.init (w.toData false)).data.length + 1) _ (init_ok hl) rfl hv
    (by rw [hv]; show _ < (w.toData false).length + 1; exact Nat.lt_succ_self _)
  have e : Witness.read false (RS.init (w.toData false)) =
    ({ stack := (readElementsAll ((RS.init (w.toData false)).data.length + 1) (RS.init (w.toData false))).1,
       valid := (readElementsAll ((RS.init (w.toData false)).data.length + 1) (RS.init (w.toData false))).2.good,
       size := stackSize (readElementsAll ((RS.init (w.toData false)).data.length + 1) (RS.init (w.toData false))).1 },
      (readElementsAll ((RS.init (w.toData false)).data.length + 1) (RS.init (w.toData false))).2) := rfl
  rw [h1, h2] at e
  intro r
  have hr : r = _ := e
  rw [hr]
  refine ⟨rfl, rfl, rfl, ?_⟩
  exact Witness.size_ok (w := Witness.ofStack w.stack) (show stackSize _ = stackSize _ from rfl) false (by
    show (w.toData false).length < _
    omega)

/-- Non-vacuity: a stack with an empty and a non-empty element. -/
example : (Witness.ofStack [[], [1, 2, 3]]).Writable := ⟨by decide, by decide⟩

end Verif
