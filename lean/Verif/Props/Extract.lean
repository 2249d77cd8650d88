import Verif.Model.Extract
import Verif.Props.Wallet
import Verif.Props.Patterns
/-!
# C101: payment addresses of scripts
-/
namespace Verif.Wallet
open Verif Verif.Ec Verif.Spec.Wallet Verif.Spec.Form
open Verif.Pattern (parse_is push_of pushes_of isPush_iff signKeyHash_iff signScriptHash_iff payKeyHash_iff payScriptHash_iff isPublicKey_iff opsData_cons opsData_append)
open Verif.Sha (Build)
variable {P : Type} [AddCommGroup P] [DecidableEq P] {C : Curve P} {b : Build} {s : Bytes}

/-- **C101** (outputs) The address of an output script is that of the hash it pays, of a key or of a script, and no other script has one. -/
theorem C101_output (hl : s.length < 2 ^ 63) (kh sh : UInt8) :
    (∀ h e, h.length = 20 → Pushes e h → s = [0x76, 0xa9] ++ e ++ [0x88, 0xac] → extractOutput b (parseOps s) kh sh = Address.ofHash b h kh) ∧
    (∀ h : Bytes, h.length = 20 → s = [0xa9, 0x14] ++ h ++ [0x87] → extractOutput b (parseOps s) kh sh = Address.ofHash b h sh) ∧
    (¬ PayKeyHash s → ¬ PayScriptHash s → (extractOutput b (parseOps s) kh sh).valid b = false) := by
  refine ⟨?_, ?_, ?_⟩
  · intro h e hh hp hs
    obtain ⟨o, o1, o2, o3, -⟩ := push_of hp
    have hk := (payKeyHash_iff hl).2 ⟨h, e, hh, hp, hs⟩
    have : parseOps s = [{ code := 0x76 }, { code := 0xa9 }, o, { code := 0x88 }, { code := 0xac }] := by
      refine parse_is hl ?_ ?_
      · intro x hx
        simp only [List.mem_cons, List.not_mem_nil, or_false] at hx
        rcases hx with rfl | rfl | rfl | rfl | rfl
        · exact plain_consistent _ (by decide)
        · exact plain_consistent _ (by decide)
        · exact o1
        · exact plain_consistent _ (by decide)
        · exact plain_consistent _ (by decide)
      · simp only [opsData_cons, o2, hs]
        rfl
    unfold extractOutput
    rw [if_pos hk, this]
    dsimp only
    rw [o3, List.take_of_length_le (by omega)]
  · intro h hh hs
    have hk := (payScriptHash_iff hl).2 ⟨h, hh, hs⟩
    have hn : ¬ payKeyHashPattern (parseOps s) = true := by
      rw [payKeyHash_iff hl]
      rintro ⟨h', e, -, -, e2⟩
      rw [hs] at e2; simp at e2
    obtain ⟨o, o1, o2, o3, -⟩ := push_of (Pushes.direct h (by omega))
    have : parseOps s = [{ code := 0xa9 }, o, { code := 0x87 }] := by
      refine parse_is hl ?_ ?_
      · intro x hx
        simp only [List.mem_cons, List.not_mem_nil, or_false] at hx
        rcases hx with rfl | rfl | rfl
        · exact plain_consistent _ (by decide)
        · exact o1
        · exact plain_consistent _ (by decide)
      · simp only [opsData_cons, o2, hs, hh]
        rfl
    unfold extractOutput
    rw [if_neg hn, if_pos hk, this]
    dsimp only
    rw [o3, List.take_of_length_le (by omega)]
  · intro h1 h2
    unfold extractOutput
    rw [if_neg (fun h => h1 ((payKeyHash_iff hl).1 h)), if_neg (fun h => h2 ((payScriptHash_iff hl).1 h))]
    exact none_invalid

/-- The bytes a script hash input reveals: what its last push pushes. -/
def Reveals (s d : Bytes) : Prop :=
  ∃ (l : List Bytes) (e : Bytes), (∀ x ∈ l, (∃ y, Pushes x y) ∨ ∃ c : UInt8, (c = 79 ∨ 81 ≤ c ∧ c ≤ 96) ∧ x = [c]) ∧ Pushes e d ∧ d ≠ [] ∧
    s = l.flatten ++ e

theorem reveals_last (hl : s.length < 2 ^ 63) {d : Bytes} (h : Reveals s d) : (parseOps s).getLast?.map Op.data = some d := by
  obtain ⟨l, e, h1, h2, h3, h4⟩ := h
  obtain ⟨ops, o1, o2⟩ := pushes_of l h1
  obtain ⟨x, x1, x2, x3, x4⟩ := push_of h2
  have : parseOps s = ops ++ [x] := by
    refine parse_is hl ?_ (by rw [opsData_append, o2, h4]; simp [opsData, x2])
    intro o ho
    rcases List.mem_append.1 ho with ho | ho
    · exact (o1 o ho).1
    · rw [List.mem_singleton.1 ho]; exact x1
  rw [this, List.getLast?_concat]
  simp [x3]

/-- (script hash inputs) The address of an input that reveals a script, and does not look like a signature and a public key, is that of the
hash of the script: the address of the output it spends. -/
theorem C101_input_script (hl : s.length < 2 ^ 63) (kh sh : UInt8) {d : Bytes} (h : Reveals s d) (hd : d.length ≤ 100000)
    (hn : ¬ SignKeyHash s) :
    extractInput C b (parseOps s) kh sh = [Address.ofHash b (hash160 d) sh] ∧
    extract C b (parseOps s) kh sh = [Address.ofHash b (hash160 d) sh] ∧
    [extractOutput b (parseOps ([0xa9, 0x14] ++ hash160 d ++ [0x87])) kh sh] = extractInput C b (parseOps s) kh sh := by
  have hp : Pattern.inputPattern (parseOps s) = .signScriptHash :=
    (Pattern.C64_input hl).2.1.2 ⟨by obtain ⟨l, e, x⟩ := h; exact ⟨l, e, d, x⟩, hn⟩
  have e1 : extractInput C b (parseOps s) kh sh = [Address.ofHash b (hash160 d) sh] := by
    unfold extractInput
    rw [hp, reveals_last hl h]
    dsimp only [Option.getD_some]
    rw [hash160_eq _ hd]
  refine ⟨e1, ?_, ?_⟩
  · unfold extract
    rw [e1]; rfl
  · rw [e1]
    have hl2 : ([0xa9, 0x14] ++ hash160 d ++ [0x87]).length < 2 ^ 63 := by
      have := hash160_length d
      simp [this]
    rw [(C101_output (b := b) hl2 kh sh).2.1 (hash160 d) (hash160_length d) rfl]

/-- (other scripts) A script that is neither a script hash input nor ends in a cut push has no input address, and its address is its output
address: so it is for every key hash and script hash output. -/
theorem C101_extract (hl : s.length < 2 ^ 63) (kh sh : UInt8) (hn : ¬ SignScriptHash s) :
    extractInput C b (parseOps s) kh sh = [] ∧ extract C b (parseOps s) kh sh = [extractOutput b (parseOps s) kh sh] := by
  have e1 : extractInput C b (parseOps s) kh sh = [] := by
    unfold extractInput
    have h1 : Pattern.inputPattern (parseOps s) ≠ .signKeyHash := fun h =>
      hn (Pattern.forms_pushOnly.1 ((Pattern.C64_input hl).1.1 h))
    have h2 : Pattern.inputPattern (parseOps s) ≠ .signScriptHash := fun h => hn ((Pattern.C64_input hl).2.1.1 h).1
    generalize Pattern.inputPattern (parseOps s) = k at h1 h2
    cases k <;> first | rfl | (exact absurd rfl h1) | (exact absurd rfl h2)
  refine ⟨e1, ?_⟩
  unfold extract
  rw [e1]; rfl

theorem C101_output_scripts (hl : s.length < 2 ^ 63) (kh sh : UInt8) (h : PayKeyHash s ∨ PayScriptHash s) :
    extract C b (parseOps s) kh sh = [extractOutput b (parseOps s) kh sh] ∧ (extractOutput b (parseOps s) kh sh).valid b = true := by
  refine ⟨(C101_extract hl kh sh (Pattern.C64_unambiguous hl (by rcases h with h | h <;> simp [h])).2.1).2, ?_⟩
  rcases h with ⟨g, e, h1, h2, h3⟩ | ⟨g, h1, h2⟩
  · rw [(C101_output hl kh sh).1 g e h1 h2 h3]
    exact (C63_address_text kh g h1).2.1
  · rw [(C101_output hl kh sh).2.1 g h1 h2]
    exact (C63_address_text sh g h1).2.1

/-- Not what is documented: of an input that signs with a public key, the address is not that of the key. The key is never read: the
signature is taken for it, so that the address is invalid unless the signature itself has the form of a public key. -/
theorem C101_input_key_counterexample (hl : s.length < 2 ^ 63) (kh sh : UInt8) {g k e f : Bytes} (hg : Endorsement g) (hk : Spec.Form.PublicKey k)
    (he : Pushes e g) (hf : Pushes f k) (hs : s = e ++ f) (hn : ¬ Spec.Form.PublicKey g) :
    extractInput C b (parseOps s) kh sh = [Address.none] ∧ extract C b (parseOps s) kh sh = [Address.none] ∧ Address.none.valid b = false := by
  have hp : Pattern.inputPattern (parseOps s) = .signKeyHash := (Pattern.C64_input hl).1.2 ⟨g, k, e, f, hg, hk, he, hf, hs⟩
  obtain ⟨x, x1, x2, x3, -⟩ := push_of he
  obtain ⟨y, y1, y2, y3, -⟩ := push_of hf
  have h2 : parseOps s = [x, y] := parse_is hl (by simp [x1, y1]) (by rw [opsData_two, x2, y2, hs])
  have e1 : extractInput C b (parseOps s) kh sh = [Address.none] := by
    unfold extractInput
    rw [hp, h2]
    dsimp only [List.head?_cons, Option.map_some, Option.getD_some]
    rw [x3]
    have : isPublicKey g = false := by
      cases h : isPublicKey g
      · rfl
      · exact absurd ((isPublicKey_iff g).1 h) hn
    unfold PublicKey.fromData
    rw [this]
    simp only [Bool.not_false, if_true]
    rfl
  refine ⟨e1, ?_, none_invalid⟩
  unfold extract
  rw [e1]; rfl

/-- A signature as signed is never of that form: it starts with the sequence tag. -/
theorem C101_signature_form (g : Bytes) (h : g.head? = some 0x30) : ¬ Spec.Form.PublicKey g := by
  unfold Spec.Form.PublicKey
  rw [h]; simp

/-- Nor is the address of a witness key hash output none, as `extract` is documented to give: it is read as an input, and has the
address of the script that is its program. -/
theorem C101_extract_witness_counterexample (h : Bytes) (hh : h.length = 20) (kh sh : UInt8) :
    (extractOutput b (parseOps ([0x00, 0x14] ++ h)) kh sh).valid b = false ∧
    extract C b (parseOps ([0x00, 0x14] ++ h)) kh sh = [Address.ofHash b (hash160 h) sh] := by
  have hl : ([0x00, 0x14] ++ h).length < 2 ^ 63 := by simp [hh]
  refine ⟨(C101_output hl kh sh).2.2 ?_ ?_, (C101_input_script hl kh sh ?_ (by omega) ?_).2.1⟩
  · rintro ⟨x, e, -, -, e2⟩; simp at e2
  · rintro ⟨x, -, e2⟩; simp at e2
  · have hp := Pushes.direct h (by omega)
    rw [hh] at hp
    refine ⟨[[0]], [0x14] ++ h, ?_, hp, (by rintro rfl; cases hh), rfl⟩
    intro x hx
    rw [List.mem_singleton.1 hx]
    exact .inl ⟨_, .direct [] (by decide)⟩
  · rintro ⟨g, k, e, f, hg, hk, he, hf, e2⟩
    have : e = [0] ∨ ∃ r, e = 0 :: r := by
      cases e with
      | nil => cases he
      | cons x r => injection e2 with e2 _; exact .inr ⟨r, by rw [← e2]⟩
    have : ∀ e g : Bytes, Pushes e g → e.head? = some 0 → g = [] := by
      intro e g hp h0
      cases hp with
      | direct _ hx =>
        injection h0 with h0
        have := congrArg UInt8.toNat h0
        simp at this
        exact List.eq_nil_of_length_eq_zero (by omega)
      | one _ hx => injection h0 with h0; exact absurd h0 (by decide)
      | two _ hx => injection h0 with h0; exact absurd h0 (by decide)
      | four _ hx => injection h0 with h0; exact absurd h0 (by decide)
    have hg0 := this e g he (by rename_i hh2; rcases hh2 with rfl | ⟨r, rfl⟩ <;> rfl)
    rw [hg0] at hg
    exact absurd hg.1 (by decide)

/-! ## Concrete cases -/

example : Reveals ([0x00, 0x51, 0x02, 0x51, 0x87]) [0x51, 0x87] :=
  ⟨[[0], [0x51]], [0x02, 0x51, 0x87], by
    intro x hx
    simp only [List.mem_cons, List.not_mem_nil, or_false] at hx
    rcases hx with rfl | rfl
    · exact .inl ⟨_, .direct [] (by decide)⟩
    · exact .inr ⟨0x51, .inr (by decide), rfl⟩, .direct [0x51, 0x87] (by decide), by simp, rfl⟩
example : Endorsement (0x30 :: List.replicate 70 1) ∧ Spec.Form.PublicKey (2 :: List.replicate 32 9) ∧
    Pushes (71 :: 0x30 :: List.replicate 70 1) (0x30 :: List.replicate 70 1) ∧ Pushes (33 :: 2 :: List.replicate 32 9) (2 :: List.replicate 32 9) :=
  ⟨⟨by decide, by decide⟩, .inl (by decide), .direct (0x30 :: List.replicate 70 1) (by decide), .direct (2 :: List.replicate 32 9) (by decide)⟩
example : PayKeyHash ([0x76, 0xa9] ++ (0x14 :: List.replicate 20 7) ++ [0x88, 0xac]) :=
  ⟨List.replicate 20 7, 0x14 :: List.replicate 20 7, by decide, .direct (List.replicate 20 7) (by decide), rfl⟩

end Verif.Wallet
