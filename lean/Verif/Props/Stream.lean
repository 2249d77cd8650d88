import Verif.Lemmas.Stream
/-!
# Properties C01, C02, C03: integers on the wire and the byte reader

`RS.init d` is a reader freshly constructed on the buffer `d`; `(p s).1` is the value a reading procedure
returns and `(p s).2` the reader afterwards, whose `good` field is what `operator bool` reports.
-/
namespace Verif

/-! ## C01 -/

/-- Writing a number and reading it back returns the number, consumes exactly the written bytes and
leaves the reader good, whatever follows in the buffer. -/
theorem C01_variable_roundtrip (v : Nat) (hv : v < 2 ^ 64) (rest : Bytes)
    (hlen : (writeVariable v ++ rest).length < 2 ^ 63) :
    let r := readVariable (RS.init (writeVariable v ++ rest))
    r.1 = v ∧ r.2.good = true ∧ r.2.pos = (writeVariable v).length ∧ r.2.rest = rest := by
  have hv0 : (RS.init (writeVariable v ++ rest)).view = writeVariable v ++ rest := by
    unfold RS.view RS.rest RS.init
    simp only [List.drop_zero]
    apply List.take_of_length_le
    have : maxSize = 2 ^ 64 - 1 := rfl
    omega
  have h := fwd_readVariable v hv (RS.init (writeVariable v ++ rest)) ⟨Nat.zero_le _, hlen⟩ rfl
    (by rw [hv0]; exact List.prefix_append _ _)
  intro r
  have hr : r = (v, (RS.init (writeVariable v ++ rest)).adv (writeVariable v).length) := h
  rw [hr]
  refine ⟨rfl, rfl, by simp [RS.init], ?_⟩
  simp [RS.rest, RS.init]

/-- Whatever the reader's buffer, position and limit: if reading a variable integer leaves the reader good then
the bytes consumed are exactly the encoding `write_variable` produces for the returned number. In
particular non-minimal encodings and truncated ones are rejected. -/
theorem C01_variable_canonical (s : RS) (hpos : s.pos ≤ s.data.length) (hlen : s.data.length < 2 ^ 63)
    (hgood : (readVariable s).2.good = true) :
    let v := (readVariable s).1
    v < 2 ^ 64 ∧ s.good = true ∧ s.rest = writeVariable v ++ (readVariable s).2.rest ∧
    (readVariable s).2.pos = s.pos + (writeVariable v).length ∧ (writeVariable v).length ≤ s.rem := by
  obtain ⟨g, b, hp, ⟨rfl, hv⟩, hst⟩ := bwd_readVariable.back s ⟨hpos, hlen⟩ hgood
  have hl := hp.length_le
  rw [s.view_length] at hl
  refine ⟨hv, g, ?_, by rw [hst]; rfl, by omega⟩
  have hr : s.view <+: s.rest := List.take_prefix _ _
  obtain ⟨t, ht⟩ := hp.trans hr
  have e : (readVariable s).2.rest = s.rest.drop (writeVariable (readVariable s).1).length := by
    conv => lhs; rw [hst]
    rw [RS.rest_adv]
  rw [e]
  conv => rhs; rw [← ht, List.drop_left]
  exact ht.symm

/-- The code is a prefix code: no encoding is a proper prefix of another, so distinct numbers have
distinct, unambiguous encodings. -/
theorem C01_variable_prefix_free (v w : Nat) (hv : v < 2 ^ 64) (hw : w < 2 ^ 64)
    (h : writeVariable v <+: writeVariable w) : v = w := by
  obtain ⟨t, ht⟩ := h
  have l1 := writeVariable_length w
  have l9 := variableSize_le w
  have h1 := C01_variable_roundtrip v hv t (by rw [ht]; omega)
  have h2 := C01_variable_roundtrip w hw [] (by simp; omega)
  rw [ht] at h1
  rw [List.append_nil] at h2
  exact h1.1.symm.trans h2.1

/-- The predicted size (`variable_size`) is the number of bytes written, and the size predicted from the
first byte (`size_variable`) agrees. -/
theorem C01_variable_size (v : Nat) :
    (writeVariable v).length = variableSize v ∧
      sizeVariable ((writeVariable v).headD 0) = variableSize v := by
  refine ⟨writeVariable_length v, ?_⟩
  unfold writeVariable variableSize
  split
  · rename_i h
    have hb : (UInt8.ofNat v).toNat = v := by rw [UInt8.toNat_ofNat']; omega
    have e : ∀ k : UInt8, 0xfd ≤ k.toNat → UInt8.ofNat v ≠ k := by
      intro k hk hc; rw [← hc, hb] at hk; omega
    simp [sizeVariable, e 0xff (by decide), e 0xfe (by decide), e 0xfd (by decide)]
  split
  · rfl
  split <;> rfl

example : readVariable (RS.init (writeVariable 70000 ++ [1, 2])) =
    (70000, { RS.init (writeVariable 70000 ++ [1, 2]) with pos := 5, rem := maxSize - 5 }) := by decide
-- a non-minimal encoding of 5 is rejected
example : (readVariable (RS.init [0xfd, 5, 0])).2.good = false := by decide
-- hypotheses of the canonicity theorem are satisfiable with a binding limit
example : (readVariable { data := [9, 0xfd, 0xff, 0x01, 7], pos := 1, good := true, rem := 3 }).2.good = true ∧
    (readVariable { data := [9, 0xfd, 0xff, 0x01, 7], pos := 1, good := true, rem := 2 }).2.good = false := by decide

/-! ## C02 -/

/-- Little-endian integers of any width: reading back what was written returns the value modulo
`256^n`, consumes `n` bytes and leaves the reader good. -/
theorem C02_little_endian_roundtrip (n v : Nat) (rest : Bytes) (hlen : n + rest.length < 2 ^ 63) :
    let r := readLE n (RS.init (writeLE n v ++ rest))
    (writeLE n v).length = n ∧ r.1 = v % 256 ^ n ∧ r.2.good = true ∧ r.2.rest = rest := by
  have hl : (writeLE n v).length = n := by simp [writeLE]
  have hv0 : (RS.init (writeLE n v ++ rest)).view = writeLE n v ++ rest := by
    unfold RS.view RS.rest RS.init
    simp only [List.drop_zero]
    apply List.take_of_length_le
    have : maxSize = 2 ^ 64 - 1 := rfl
    rw [List.length_append]
    omega
  have h := doRead_ok (s := RS.init (writeLE n v ++ rest))
    ⟨Nat.zero_le _, by simp [RS.init, hl]; exact hlen⟩ rfl hl (by rw [hv0]; exact List.prefix_append _ _)
  have hr : readLE n (RS.init (writeLE n v ++ rest)) =
      (leNat (writeLE n v), (RS.init (writeLE n v ++ rest)).adv n) := by
    unfold readLE; rw [bind_run, h]; rfl
  intro r
  rw [show r = _ from hr]
  refine ⟨hl, leNat_leBytes n v, rfl, ?_⟩
  rw [RS.rest_adv]
  exact List.drop_left' hl

/-- Big-endian integers of any width. -/
theorem C02_big_endian_roundtrip (n v : Nat) (rest : Bytes) (hlen : n + rest.length < 2 ^ 63) :
    let r := readBE n (RS.init (writeBE n v ++ rest))
    (writeBE n v).length = n ∧ r.1 = v % 256 ^ n ∧ r.2.good = true ∧ r.2.rest = rest := by
  have hl : (writeBE n v).length = n := by simp [writeBE]
  have hv0 : (RS.init (writeBE n v ++ rest)).view = writeBE n v ++ rest := by
    unfold RS.view RS.rest RS.init
    simp only [List.drop_zero]
    apply List.take_of_length_le
    have : maxSize = 2 ^ 64 - 1 := rfl
    rw [List.length_append]
    omega
  have h := doRead_ok (s := RS.init (writeBE n v ++ rest))
    ⟨Nat.zero_le _, by simp [RS.init, hl]; exact hlen⟩ rfl hl (by rw [hv0]; exact List.prefix_append _ _)
  have hr : readBE n (RS.init (writeBE n v ++ rest)) =
      (beNat (writeBE n v), (RS.init (writeBE n v ++ rest)).adv n) := by
    unfold readBE; rw [bind_run, h]; rfl
  intro r
  rw [show r = _ from hr]
  refine ⟨hl, by simp [beNat, writeBE, beBytes, leNat_leBytes], rfl, ?_⟩
  rw [RS.rest_adv]
  exact List.drop_left' hl

/-- The byte at offset `i` of a little-endian encoding is base-256 digit `i` of the value; big-endian is
the reverse. This fixes the byte order independently of the reader. -/
theorem C02_byte_order (n v i : Nat) (hi : i < n) :
    ((writeLE n v)[i]?).map UInt8.toNat = some (v / 256 ^ i % 256) ∧
    ((writeBE n v)[n - 1 - i]?).map UInt8.toNat = some (v / 256 ^ i % 256) := by
  have key : ∀ (n v i : Nat), i < n →
      ((leBytes n v)[i]?).map UInt8.toNat = some (v / 256 ^ i % 256) := by
    intro n
    induction n with
    | zero => intro v i h; omega
    | succ n ih =>
      intro v i h
      cases i with
      | zero => simp [leBytes]
      | succ i =>
        simp only [leBytes, List.getElem?_cons_succ]
        rw [ih (v / 256) i (by omega), Nat.div_div_eq_div_mul, Nat.pow_succ, Nat.mul_comm 256]
  refine ⟨key n v i hi, ?_⟩
  unfold writeBE beBytes
  rw [List.getElem?_reverse (by simp; omega)]
  simp only [leBytes_length]
  rw [show n - 1 - (n - 1 - i) = i by omega]
  exact key n v i hi

example : writeLE 4 0x01020304 = [4, 3, 2, 1] ∧ writeBE 4 0x01020304 = [1, 2, 3, 4] := by decide

end Verif
