import Verif.Model.ScriptText
import Verif.Spec.Chain
import Verif.Props.Radix
/-!
# C42: the text of operations, scripts and witnesses
-/
namespace Verif.ScriptText
open Verif
open Verif.Radix (ascii encode16 decode16)
open Verif.Machine (opcodeFromSize)

/-! ### Tokens -/

theorem splitOn_none {c : UInt8} : ∀ {t : Bytes}, c ∉ t → splitOn c t = [t]
  | [], _ => rfl
  | x :: t, h => by
    simp only [List.mem_cons, not_or] at h
    rw [splitOn, if_neg (fun e => h.1 e.symm), splitOn_none h.2]

theorem splitOn_append {c : UInt8} {r : Bytes} : ∀ {t : Bytes}, c ∉ t → splitOn c (t ++ c :: r) = t :: splitOn c r
  | [], _ => by rw [List.nil_append, splitOn, if_pos rfl]
  | x :: t, h => by
    simp only [List.mem_cons, not_or] at h
    rw [List.cons_append, splitOn, if_neg (fun e => h.1 e.symm), splitOn_append h.2]

/-- A token: not empty and without whitespace. -/
def Token (t : Bytes) : Prop := t ≠ [] ∧ ∀ c ∈ t, isWs c = false

theorem dropWhile_none {p : UInt8 → Bool} {s : Bytes} (h : ∀ c, s.head? = some c → p c = false) : s.dropWhile p = s := by
  cases s with
  | nil => rfl
  | cons x s => rw [List.dropWhile_cons, if_neg (by rw [h x rfl]; exact Bool.false_ne_true)]

theorem trimWs_id {s : Bytes} (h1 : ∀ c, s.head? = some c → isWs c = false) (h2 : ∀ c, s.getLast? = some c → isWs c = false) : trimWs s = s := by
  unfold trimWs
  rw [dropWhile_none h1, dropWhile_none (by rw [List.head?_reverse]; exact h2), List.reverse_reverse]

theorem trimWs_token {t : Bytes} (h : ∀ c ∈ t, isWs c = false) : trimWs t = t :=
  trimWs_id (fun c hc => h c (List.mem_of_mem_head? hc)) (fun c hc => h c (List.mem_of_getLast? hc))

theorem joined_last : ∀ (t : Bytes) (ts : List Bytes), (∀ t' ∈ t :: ts, Token t') → ∃ l c, joined (t :: ts) = l ++ [c] ∧ isWs c = false := by
  intro t ts h
  rcases List.eq_nil_or_concat ts with rfl | ⟨ts', u, rfl⟩
  · obtain ⟨hne, hw⟩ := h t (by simp)
    refine ⟨t.dropLast, t.getLast hne, ?_, hw _ (List.getLast_mem hne)⟩
    rw [List.dropLast_concat_getLast, joined]; simp
  · obtain ⟨hne, hw⟩ := h u (by simp)
    refine ⟨t ++ ts'.flatMap (fun t => ascii " " ++ t) ++ ascii " " ++ u.dropLast, u.getLast hne, ?_, hw _ (List.getLast_mem hne)⟩
    rw [joined, List.concat_eq_append, List.flatMap_append]
    simp only [List.flatMap_cons, List.flatMap_nil, List.append_nil, List.append_assoc]
    rw [List.dropLast_concat_getLast]

theorem replaced_joined (ts : List Bytes) (h : ∀ t ∈ ts, ∀ c ∈ t, isWs c = false) :
    (ts.flatMap fun t => ascii " " ++ t).map (fun c => if isWs c then 9 else c) = ts.flatMap fun t => 9 :: t := by
  induction ts with
  | nil => rfl
  | cons t ts ih =>
    rw [List.flatMap_cons, List.flatMap_cons, List.map_append, ih (fun t ht => h t (by simp [ht]))]
    congr 1
    have : ascii " " = [0x20] := by decide
    rw [this, List.cons_append, List.nil_append, List.map_cons]
    congr 1
    conv => rhs; rw [← List.map_id t]
    exact List.map_congr_left fun c hc => by rw [h t (by simp) c hc]; rfl

theorem splitOn_joined : ∀ (t : Bytes) (ts : List Bytes), (∀ t' ∈ t :: ts, 9 ∉ t') → splitOn 9 (t ++ ts.flatMap fun t => 9 :: t) = t :: ts
  | t, [], h => by rw [List.flatMap_nil, List.append_nil, splitOn_none (h t (by simp))]
  | t, u :: ts, h => by
    rw [List.flatMap_cons, List.cons_append, splitOn_append (h t (by simp)), splitOn_joined u ts (fun t' ht => h t' (by simp_all))]

/-- Joining tokens and splitting gives the tokens. -/
theorem tokens_joined (ts : List Bytes) (h : ∀ t ∈ ts, Token t) : tokens (joined ts) = ts := by
  cases ts with
  | nil => decide
  | cons t ts =>
    obtain ⟨hne, hw⟩ := h t (by simp)
    have hws : ∀ t' ∈ t :: ts, ∀ c ∈ t', isWs c = false := fun t' ht => (h t' ht).2
    obtain ⟨l, c, e, hc⟩ := joined_last t ts h
    have htrim : trimWs (joined (t :: ts)) = joined (t :: ts) := by
      apply trimWs_id
      · intro c hc
        obtain ⟨x, t', rfl⟩ := List.exists_cons_of_ne_nil hne
        rw [joined, List.cons_append, List.head?_cons] at hc
        cases hc
        exact hw _ (by simp)
      · intro c' hc'
        rw [e, List.getLast?_append, List.getLast?_singleton] at hc'
        cases hc'
        exact hc
    have hsplit : split (joined (t :: ts)) = t :: ts := by
      unfold split
      dsimp only
      rw [htrim, joined, List.map_append, replaced_joined ts (fun t' ht => hws t' (by simp [ht]))]
      have hid : t.map (fun c => if isWs c then 9 else c) = t := by
        conv => rhs; rw [← List.map_id t]
        exact List.map_congr_left fun c hc => by rw [hw c hc]; rfl
      rw [hid, splitOn_joined t ts (fun t' ht h9 => by have := hws t' ht 9 h9; revert this; decide)]
      have hmap : (t :: ts).map trimWs = t :: ts := by
        conv => rhs; rw [← List.map_id (t :: ts)]
        exact List.map_congr_left fun t' ht => trimWs_token (hws t' ht)
      rw [hmap]
      have hfil : (t :: ts).filter (fun t => !t.isEmpty) = t :: ts := by
        rw [List.filter_eq_self]
        intro t' ht
        have := (h t' ht).1
        cases t' with
        | nil => exact absurd rfl this
        | cons => rfl
      rw [hfil]
      rfl
    unfold tokens
    rw [hsplit]
    obtain ⟨x, t', rfl⟩ := List.exists_cons_of_ne_nil hne
    rfl

/-! ### Opcodes -/

/-- What the text of an opcode looks like, and that it is read as the opcode. -/
def goodText (s : Bytes) (n : Nat) : Bool :=
  !s.isEmpty && s.all (fun c => !isWs c) && s.head? != some 91 && s.head? != some 39 && s.head? != some 60 && fromMnemonic s == some (UInt8.ofNat n)

theorem opcode_table : ∀ n < 256, goodText (toMnemonic ⟨false, false, false⟩ (UInt8.ofNat n)) n = true := by
  decide +kernel

theorem opcode_forks : goodText (ascii "checklocktimeverify") 177 = true ∧ goodText (ascii "checksequenceverify") 178 = true ∧
    goodText (ascii "checksigadd") 186 = true := by
  decide +kernel

theorem opcode_good (f : Forks) (code : UInt8) : goodText (toMnemonic f code) code.toNat = true := by
  have h := opcode_table code.toNat code.toNat_lt
  rw [UInt8.ofNat_toNat] at h
  obtain ⟨h1, h2, h3⟩ := opcode_forks
  unfold toMnemonic at h ⊢
  dsimp only at h ⊢
  split at h
  · rename_i g; rw [if_pos g]; exact h
  · rename_i g
    rw [if_neg g]
    split at h
    · rename_i g; rw [if_pos g]; exact h
    · rename_i g
      rw [if_neg g]
      split at h
      · rename_i g
        rw [if_pos g]
        cases f.bip65
        · exact h
        · rw [g]; exact h1
      · rename_i g
        rw [if_neg g]
        split at h
        · rename_i g
          rw [if_pos g]
          cases f.bip112
          · exact h
          · rw [g]; exact h2
        · rename_i g
          rw [if_neg g]
          split at h
          · rename_i g
            rw [if_pos g]
            cases f.bip342
            · exact h
            · rw [g]; exact h3
          · rename_i g
            rw [if_neg g]
            exact h

/-! ### Operations -/

theorem hex_noDot (d : Bytes) : 46 ∉ encode16 d := by
  intro h
  have := List.all_eq_true.1 (Radix.encode16_all d) 46 h
  revert this; decide

theorem hex_noWs (d : Bytes) : ∀ c ∈ encode16 d, isWs c = false := by
  intro c h
  have := List.all_eq_true.1 (Radix.encode16_all d) c h
  revert this
  have : ∀ c : UInt8, Radix.isBase16 c = true → isWs c = false := Radix.forall_byte (by decide +kernel)
  exact this c

theorem isToken_iff (a b : UInt8) (s : Bytes) : isToken a b s = true ↔ ∃ m, s = a :: (m ++ [b]) := by
  unfold isToken
  constructor
  · intro h
    simp only [Bool.and_eq_true, decide_eq_true_eq, beq_iff_eq] at h
    obtain ⟨⟨h1, h2⟩, h3⟩ := h
    cases s with
    | nil => simp at h1
    | cons x s =>
      simp only [List.head?_cons, Option.some.injEq] at h2
      subst h2
      have hne : s ≠ [] := by intro e; subst e; simp at h1
      refine ⟨s.dropLast, ?_⟩
      rw [List.getLast?_cons, List.getLast?_eq_some_getLast hne] at h3
      simp only [Option.getD_some, Option.some.injEq] at h3
      rw [← h3, List.dropLast_concat_getLast]
  · rintro ⟨m, rfl⟩
    simp [List.getLast?_cons, List.getLast?_append]

theorem inner_eq (a b : UInt8) (m : Bytes) : inner (a :: (m ++ [b])) = m := by
  simp [inner]

/-- The operation is not an underflow, and its data is empty or of a size its opcode can have. -/
def Printable (o : Op) : Prop := o.underflow = false ∧ (o.data = [] ∨ o.code = opcodeFromSize o.data.length ∨
  (o.code = 76 ∧ o.data.length ≤ 255) ∨ (o.code = 77 ∧ o.data.length ≤ 65535) ∨ (o.code = 78 ∧ o.data.length ≤ 4294967295))

theorem Printable.of_consistent {o : Op} (h : o.Consistent) : Printable o := by
  refine ⟨h.notUnder, ?_⟩
  have := h.fits
  unfold SizeFits at this
  split at this
  · rename_i g; exact Or.inr (Or.inr (Or.inl ⟨g, by omega⟩))
  · split at this
    · rename_i g; exact Or.inr (Or.inr (Or.inr (Or.inl ⟨g, by omega⟩)))
    · split at this
      · rename_i g; exact Or.inr (Or.inr (Or.inr (Or.inr ⟨g, by omega⟩)))
      · split at this
        · rename_i g
          have g' : o.code.toNat ≤ 75 := g
          refine Or.inr (Or.inl ?_)
          rw [opcodeFromSize, if_pos (by omega), this, UInt8.ofNat_toNat]
        · exact Or.inl (List.length_eq_zero_iff.1 this)

theorem code_le (n : Nat) : opcodeFromSize n ≤ 78 := by
  unfold opcodeFromSize
  split
  · show (UInt8.ofNat n).toNat ≤ 78
    rw [UInt8.toNat_ofNat']; omega
  · split
    · decide
    · split <;> decide

theorem Printable.code_small {o : Op} (h : Printable o) (hd : o.data ≠ []) : o.code ≤ 78 := by
  rcases h.2 with h | h | ⟨h, -⟩ | ⟨h, -⟩ | ⟨h, -⟩
  · exact absurd h hd
  · rw [h]; exact code_le _
  · rw [h]; decide
  · rw [h]; decide
  · rw [h]; decide

theorem Printable.valid {o : Op} (h : Printable o) : isValid o = true := by
  unfold isValid
  by_cases hd : o.data = []
  · simp [hd]
  · have := h.code_small hd
    have hc : o.code ≠ anyInvalid := by intro e; rw [e] at this; revert this; decide
    simp [hc]

theorem prefix_ascii : ascii "1." = [49, 46] ∧ ascii "2." = [50, 46] ∧ ascii "4." = [52, 46] ∧ ascii "0." = [48, 46] ∧ ascii "[" = [91] ∧
    ascii "]" = [93] ∧ ascii "0" = [48] ∧ ascii "1" = [49] ∧ ascii "2" = [50] ∧ ascii "4" = [52] := by decide +kernel

/-- The text of an operation. -/
theorem toText_printable (f : Forks) (o : Op) (h : Printable o) :
    toText f o = if o.data = [] then toMnemonic f o.code else 91 :: (toPrefix o.code o.data ++ encode16 o.data ++ [93]) := by
  unfold toText
  rw [h.valid, h.1]
  by_cases hd : o.data = []
  · simp [hd]
  · have : o.data.isEmpty = false := by cases ho : o.data with | nil => exact absurd ho hd | cons => rfl
    rw [if_neg hd, this]
    simp [prefix_ascii]

/-- Reading the text of an operation gives the operation, whatever rules the text was made for. -/
theorem C42_operation_printable (f : Forks) (o : Op) (h : Printable o) : fromString (toText f o) = o := by
  have ho : o = { code := o.code, data := o.data, underflow := false } := by cases o; simp_all [Printable]
  rw [toText_printable f o h]
  by_cases hd : o.data = []
  · rw [if_pos hd]
    have hg := opcode_good f o.code
    unfold goodText at hg
    simp only [Bool.and_eq_true, Bool.not_eq_true', bne_iff_ne, ne_eq, beq_iff_eq] at hg
    obtain ⟨⟨⟨⟨⟨h1, h2⟩, h3⟩, h4⟩, h5⟩, h6⟩ := hg
    generalize toMnemonic f o.code = s at *
    have hno : ∀ a b, s.head? ≠ some a → isToken a b s ≠ true := by
      intro a b hh ht
      obtain ⟨m, rfl⟩ := (isToken_iff a b s).1 ht
      exact hh rfl
    unfold fromString
    rw [if_neg (hno _ _ h3), if_neg (hno _ _ h4), if_neg (hno _ _ h5), h6, UInt8.ofNat_toNat]
    rw [ho, hd]
  · rw [if_neg hd]
    unfold fromString
    rw [if_pos ((isToken_iff 91 93 _).2 ⟨_, rfl⟩), inner_eq]
    have hdec := Radix.C31_decode_encode o.data
    unfold toPrefix
    by_cases hc : o.code = opcodeFromSize o.data.length
    · rw [if_pos hc, List.nil_append, splitOn_none (hex_noDot _)]
      dsimp only
      rw [hdec]
      dsimp only
      rw [← hc, ← ho]
    · rw [if_neg hc]
      rcases h.2 with g | g | ⟨g1, g2⟩ | ⟨g1, g2⟩ | ⟨g1, g2⟩
      · exact absurd g hd
      · exact absurd g hc
      · rw [if_pos g1, prefix_ascii.1, show ([49, 46] ++ encode16 o.data : Bytes) = [49] ++ 46 :: encode16 o.data from rfl,
          splitOn_append (by decide), splitOn_none (hex_noDot _)]
        dsimp only
        rw [hdec]
        have : codeFromPrefix [49] o.data = some 76 := by
          unfold codeFromPrefix
          rw [if_neg (by decide), if_pos (by decide), if_pos g2]
        dsimp only
        rw [this]
        dsimp only
        rw [← g1, ← ho]
      · rw [if_neg (by rw [g1]; decide), if_pos g1, prefix_ascii.2.1, show ([50, 46] ++ encode16 o.data : Bytes) = [50] ++ 46 :: encode16 o.data from rfl,
          splitOn_append (by decide), splitOn_none (hex_noDot _)]
        dsimp only
        rw [hdec]
        have : codeFromPrefix [50] o.data = some 77 := by
          unfold codeFromPrefix
          rw [if_neg (by decide), if_neg (by decide), if_pos (by decide), if_pos g2]
        dsimp only
        rw [this]
        dsimp only
        rw [← g1, ← ho]
      · rw [if_neg (by rw [g1]; decide), if_neg (by rw [g1]; decide), if_pos g1, prefix_ascii.2.2.1,
          show ([52, 46] ++ encode16 o.data : Bytes) = [52] ++ 46 :: encode16 o.data from rfl,
          splitOn_append (by decide), splitOn_none (hex_noDot _)]
        dsimp only
        rw [hdec]
        have : codeFromPrefix [52] o.data = some 78 := by
          unfold codeFromPrefix
          rw [if_neg (by decide), if_neg (by decide), if_neg (by decide), if_pos (by decide), if_pos g2]
        dsimp only
        rw [this]
        dsimp only
        rw [← g1, ← ho]

theorem toText_token (f : Forks) (o : Op) (h : Printable o) : Token (toText f o) := by
  rw [toText_printable f o h]
  split
  · have hg := opcode_good f o.code
    unfold goodText at hg
    simp only [Bool.and_eq_true, Bool.not_eq_true', bne_iff_ne, ne_eq, beq_iff_eq, List.all_eq_true] at hg
    obtain ⟨⟨⟨⟨⟨h1, h2⟩, -⟩, -⟩, -⟩, -⟩ := hg
    exact ⟨(by intro e; rw [e] at h1; cases h1), h2⟩
  · refine ⟨by simp, ?_⟩
    intro c hc
    simp only [List.mem_cons, List.mem_append, List.not_mem_nil, or_false] at hc
    have hpre : ∀ c ∈ toPrefix o.code o.data, isWs c = false := by
      unfold toPrefix
      split
      · simp
      · split
        · decide
        · split
          · decide
          · split <;> decide
    rcases hc with rfl | (h1 | h1) | rfl
    · rfl
    · exact hpre c h1
    · exact hex_noWs _ c h1
    · rfl

/-- Every operation that can be parsed from bytes and is not an underflow has a text that reads as it. -/
theorem C42_operation (f : Forks) (o : Op) (h : o.Consistent ∨ (o.underflow = false ∧ o.data = [])) : fromString (toText f o) = o := by
  refine C42_operation_printable f o ?_
  rcases h with h | h
  · exact Printable.of_consistent h
  · exact ⟨h.1, Or.inl h.2⟩

/-! ### Scripts and witnesses -/

/-- The text of a script of such operations reads as a valid script with the same operations, size and serialisation. -/
theorem C42_script (f : Forks) (sc : Script) (h : ∀ o ∈ sc.ops, o.Consistent ∨ (o.underflow = false ∧ o.data = [])) :
    scriptFromString (scriptText f sc) = Script.ofOps sc.ops := by
  have hp : ∀ o ∈ sc.ops, Printable o := fun o ho => (h o ho).elim Printable.of_consistent fun h => ⟨h.1, Or.inl h.2⟩
  unfold scriptFromString scriptText
  dsimp only
  rw [tokens_joined _ (by
    intro t ht
    obtain ⟨o, ho, rfl⟩ := List.mem_map.1 ht
    exact toText_token f o (hp o ho)), List.map_map]
  have hid : sc.ops.map (fromString ∘ toText f) = sc.ops := by
    conv => rhs; rw [← List.map_id sc.ops]
    exact List.map_congr_left fun o ho => C42_operation_printable f o (hp o ho)
  rw [hid, if_pos (List.all_eq_true.2 fun o ho => (hp o ho).valid)]

/-- The text of a valid witness reads as the witness. -/
theorem C42_witness (stack : List Bytes) : witnessFromString (witnessText (Witness.ofStack stack)) = Witness.ofStack stack := by
  unfold witnessFromString witnessText
  have e : ∀ d : Bytes, ascii "[" ++ encode16 d ++ ascii "]" = 91 :: (encode16 d ++ [93]) := by intro d; simp [prefix_ascii]
  simp only [Witness.ofStack, Bool.not_true, Bool.false_eq_true, if_false]
  rw [tokens_joined _ (by
    intro t ht
    obtain ⟨d, -, rfl⟩ := List.mem_map.1 ht
    rw [e]
    refine ⟨by simp, ?_⟩
    intro c hc
    simp only [List.mem_cons, List.mem_append, List.not_mem_nil, or_false] at hc
    rcases hc with rfl | h1 | rfl
    · rfl
    · exact hex_noWs _ c h1
    · rfl), List.map_map]
  have hm : stack.map ((fun t => if isToken 91 93 t then decode16 (inner t) else none) ∘ fun e => ascii "[" ++ encode16 e ++ ascii "]") = stack.map some := by
    refine List.map_congr_left fun d _ => ?_
    show (if isToken 91 93 (ascii "[" ++ encode16 d ++ ascii "]") = true then decode16 (inner (ascii "[" ++ encode16 d ++ ascii "]")) else none) = some d
    rw [e, if_pos ((isToken_iff 91 93 _).2 ⟨_, rfl⟩), inner_eq, Radix.C31_decode_encode]
  rw [hm, if_pos (by simp)]
  simp

/-! ### Canonical text -/

/-- An operation read from a text is one of these, an underflow, or not valid. -/
theorem fromString_cases (s : Bytes) : Printable (fromString s) ∨ (fromString s).underflow = true ∨ fromString s = Op.default := by
  have nominal : ∀ d : Bytes, Printable { code := opcodeFromSize d.length, data := d } := fun d => ⟨rfl, Or.inr (Or.inl rfl)⟩
  unfold fromString
  split
  · split
    · split
      · exact Or.inl (nominal _)
      · exact Or.inr (Or.inr rfl)
    · split
      · split
        · rename_i d _ code hc
          refine Or.inl ⟨rfl, ?_⟩
          unfold codeFromPrefix at hc
          dsimp only
          split at hc
          · split at hc
            · cases hc; exact Or.inr (Or.inl rfl)
            · cases hc
          · split at hc
            · split at hc
              · cases hc; exact Or.inr (Or.inr (Or.inl ⟨rfl, ‹_›⟩))
              · cases hc
            · split at hc
              · split at hc
                · cases hc; exact Or.inr (Or.inr (Or.inr (Or.inl ⟨rfl, ‹_›⟩)))
                · cases hc
              · split at hc
                · split at hc
                  · cases hc; exact Or.inr (Or.inr (Or.inr (Or.inr ⟨rfl, ‹_›⟩)))
                  · cases hc
                · cases hc
        · exact Or.inr (Or.inr rfl)
      · exact Or.inr (Or.inr rfl)
    · exact Or.inr (Or.inr rfl)
  · split
    · exact Or.inl (nominal _)
    · split
      · split
        · exact Or.inr (Or.inl rfl)
        · exact Or.inr (Or.inr rfl)
      · split
        · exact Or.inl ⟨rfl, Or.inl rfl⟩
        · split
          · exact Or.inl (nominal _)
          · exact Or.inr (Or.inr rfl)

/-- Whatever text a valid operation was read from (names in any case, aliases, decimal numbers, quoted text, hexadecimal with or without a size
prefix), the text it has is read as the same operation, unless it is an underflow. -/
theorem C42_canonical (f : Forks) (s : Bytes) (hv : isValid (fromString s) = true) (hu : (fromString s).underflow = false) :
    fromString (toText f (fromString s)) = fromString s := by
  rcases fromString_cases s with h | h | h
  · exact C42_operation_printable f _ h
  · rw [hu] at h; cases h
  · rw [h] at hv; cases hv

/-- The text of an underflow is never read: `to_string` writes round brackets and `from_string` expects angle brackets. -/
theorem C42_underflow_counterexample (f : Forks) (d : Bytes) :
    fromString (toText f { code := anyInvalid, data := d, underflow := true }) = Op.default ∧
    fromString (60 :: (encode16 d ++ [62])) = { code := anyInvalid, data := d, underflow := true } := by
  constructor
  · have ht : toText f { code := anyInvalid, data := d, underflow := true } = 40 :: (encode16 d ++ [41]) := by
      unfold toText
      rw [if_neg (by simp [isValid])]
      have : ascii "(" = [40] ∧ ascii ")" = [41] := by decide
      simp [this]
    rw [ht]
    have hno : ∀ a b, a ≠ 40 → isToken a b (40 :: (encode16 d ++ [41])) ≠ true := by
      intro a b hh h
      obtain ⟨m, e⟩ := (isToken_iff a b _).1 h
      exact hh (by simp only [List.cons.injEq] at e; exact e.1.symm)
    have hname : ∀ e ∈ Catalog.opcodeNames, (ascii e.1).head? ≠ some 40 := by decide +kernel
    have hm : fromMnemonic (40 :: (encode16 d ++ [41])) = none := by
      unfold fromMnemonic
      have hf : Catalog.opcodeNames.find? (fun e => toLower (40 :: (encode16 d ++ [41])) == ascii e.1) = none := by
        rw [List.find?_eq_none]
        intro e he h
        rw [beq_iff_eq] at h
        exact hname e he (by rw [← h]; rfl)
      dsimp only
      rw [hf]
      dsimp only
      unfold fromHexadecimal
      rw [if_pos]
      refine Or.inr ?_
      intro h
      have h0 := congrArg List.head? h
      revert h0
      rw [show List.head? (List.take 2 (40 :: (encode16 d ++ [41]))) = some 40 from rfl]
      decide
    have hd : dataFromDecimal (40 :: (encode16 d ++ [41])) = none := by
      unfold dataFromDecimal isNumeric
      have : (if (40 :: (encode16 d ++ [41])).head? = some (45 : UInt8) then (40 :: (encode16 d ++ [41])).drop 1 else 40 :: (encode16 d ++ [41])) =
          40 :: (encode16 d ++ [41]) := by rw [if_neg (by simp)]
      rw [this]
      rfl
    unfold fromString
    rw [if_neg (hno _ _ (by decide)), if_neg (hno _ _ (by decide)), if_neg (hno _ _ (by decide)), hm]
    dsimp only
    rw [hd]
  · unfold fromString
    have hno : ∀ a b, a ≠ 60 → isToken a b (60 :: (encode16 d ++ [62])) ≠ true := by
      intro a b hh h
      obtain ⟨m, e⟩ := (isToken_iff a b _).1 h
      exact hh (by simp only [List.cons.injEq] at e; exact e.1.symm)
    rw [if_neg (hno _ _ (by decide)), if_neg (hno _ _ (by decide)), if_pos ((isToken_iff 60 62 _).2 ⟨_, rfl⟩), inner_eq, Radix.C31_decode_encode]

/-! ### Examples -/

/-- A script with several kinds of operations, its text and back. -/
example : scriptText ⟨true, true, true⟩ (Script.ofOps [{ code := 118 }, { code := 2, data := [5, 0xff] }, { code := 76, data := [1] }, { code := 177 }, { code := 200 }, { code := 81 }]) =
    ascii "dup [05ff] [1.01] checklocktimeverify 0xc8 1" := by
  decide +kernel

example : (∀ o ∈ [({ code := 118 } : Op), { code := 2, data := [5, 0xff] }, { code := 76, data := [1] }], o.Consistent ∨ (o.underflow = false ∧ o.data = [])) := by
  intro o ho
  simp only [List.mem_cons, List.not_mem_nil, or_false] at ho
  rcases ho with rfl | rfl | rfl
  · exact Or.inr ⟨rfl, rfl⟩
  · exact Or.inl ⟨rfl, by simp [SizeFits], by decide⟩
  · exact Or.inl ⟨rfl, by simp [SizeFits], by decide⟩

/-- Texts that are read: decimal, quoted, upper case, hexadecimal; and refused ones. -/
example : fromString (ascii "-255") = { code := 2, data := [0xff, 0x80] } ∧ fromString (ascii "'ab'") = { code := 2, data := [97, 98] } ∧
    fromString (ascii "CheckSig") = { code := 172 } ∧ fromString (ascii "0xfe") = { code := 254 } ∧ isValid (fromString (ascii "[3.00]")) = false ∧
    isValid (fromString (ascii "9223372036854775808")) = false ∧ isValid (fromString (ascii "bogus")) = false := by
  decide +kernel

example : witnessText (Witness.ofStack [[1, 2], [], [0xff]]) = ascii "[0102] [] [ff]" := by decide +kernel

end Verif.ScriptText
