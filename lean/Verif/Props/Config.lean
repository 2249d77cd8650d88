import Verif.Model.Config
import Verif.Props.Base10
import Verif.Props.Radix
import Verif.Props.ScriptText
import Verif.Props.Chain
import Mathlib.Tactic.SplitIfs
/-!
# C85: configuration values are read back from their text
-/
namespace Verif.Config
open Verif
open Verif.Radix (ascii encode16 decode16 decode16Array encodeHash decodeHash)
open Verif.ScriptText (isWs trimWs splitOn scriptText scriptFromString splitOn_none splitOn_append trimWs_token hex_noWs)

/-- A text in a stream: whitespace may precede it, and the end of the stream or whitespace follows it. -/
def Framed (s t : Bytes) : Prop := ∃ pre post, s = pre ++ t ++ post ∧ (∀ c ∈ pre, isWs c = true) ∧ (∀ c, post.head? = some c → isWs c = true)

theorem Framed.self (t : Bytes) : Framed t t := ⟨[], [], by simp, by simp, by simp⟩

theorem word_framed {s t : Bytes} (h : Framed s t) (hne : t ≠ []) (ht : ∀ c ∈ t, isWs c = false) : word s = t := by
  obtain ⟨pre, post, rfl, hpre, hpost⟩ := h
  unfold word
  have h1 : ((pre ++ t ++ post).dropWhile isWs) = t ++ post := by
    rw [List.append_assoc, List.dropWhile_append_of_pos hpre]
    cases t with
    | nil => exact absurd rfl hne
    | cons a t => rw [List.cons_append, List.dropWhile_cons, ht a (by simp)]; rfl
  rw [h1, List.takeWhile_append_of_pos (by intro c hc; rw [ht c hc]; rfl)]
  cases post with
  | nil => simp
  | cons a l => rw [List.takeWhile_cons, hpost a rfl]; simp

theorem word_self {t : Bytes} (ht : ∀ c ∈ t, isWs c = false) : word t = t := by
  cases t with
  | nil => rfl
  | cons a t => exact word_framed (.self _) (by simp) ht

/-! ### Decimal -/

theorem dec_digit (n : Nat) : ∀ c ∈ serialize n, Base10.isDigit c = true := by
  intro c hc
  rw [Base10.isDigit_iff]
  exact (Base10.formatDec_spec n).2.1 c hc

theorem digit_ne {c : UInt8} (h : Base10.isDigit c = true) : isWs c = false ∧ c ≠ 43 ∧ c ≠ 45 ∧ c ≠ 46 ∧ c ≠ 58 := by
  have : ∀ c : UInt8, Base10.isDigit c = true → isWs c = false ∧ c ≠ 43 ∧ c ≠ 45 ∧ c ≠ 46 ∧ c ≠ 58 := by
    apply Der.byte_forall; decide +kernel
  exact this c h

theorem dec_ne (n : Nat) : serialize n ≠ [] := (Base10.formatDec_spec n).2.2.1
theorem dec_noWs (n : Nat) : ∀ c ∈ serialize n, isWs c = false := fun c hc => (digit_ne (dec_digit n c hc)).1
theorem dec_head {n : Nat} {c : UInt8} (h : (serialize n).head? = some c) : c ≠ 43 ∧ c ≠ 45 :=
  let d := digit_ne (dec_digit n c (List.mem_of_mem_head? h)); ⟨d.2.1, d.2.2.1⟩

/-- The decimal text of a number is read as the number, if it is below the limit. -/
theorem deserialize_dec (limit n : Nat) : deserialize limit (serialize n) = if n < limit then some n else none := by
  unfold deserialize deserializeOut
  dsimp only
  rw [trimWs_token (dec_noWs n), if_neg (fun h => (dec_head h).2 rfl)]
  unfold scan
  rw [if_neg (dec_ne n), if_neg (fun h => (dec_head h).1 rfl)]
  have htw : (serialize n).takeWhile Base10.isDigit = serialize n := by
    have := List.takeWhile_append_of_pos (p := Base10.isDigit) (l₁ := serialize n) (l₂ := []) (dec_digit n)
    simpa using this
  have hv : Base10.digitsVal (serialize n) = n := by rw [Base10.digitsVal_eq]; exact (Base10.formatDec_spec n).1
  dsimp only
  rw [htw, if_neg (dec_ne n), hv]
  split <;> rfl

/-! ### Tokens -/

/-- A token that is not changed by splitting. -/
def Tok (c : UInt8) (t : Bytes) : Prop := t ≠ [] ∧ c ∉ t ∧ ∀ x ∈ t, isWs x = false

def joinBy (c : UInt8) : List Bytes → Bytes
  | [] => []
  | t :: ts => t ++ ts.flatMap fun t => c :: t

theorem splitOn_join {c : UInt8} : ∀ (ts : List Bytes) (t : Bytes), (∀ x ∈ t :: ts, c ∉ x) → splitOn c (joinBy c (t :: ts)) = t :: ts
  | [], t, h => by
    show splitOn c (t ++ List.flatMap _ []) = _
    rw [List.flatMap_nil, List.append_nil, splitOn_none (h t (by simp))]
  | u :: ts, t, h => by
    show splitOn c (t ++ List.flatMap _ (u :: ts)) = _
    rw [List.flatMap_cons, List.cons_append, splitOn_append (h t (by simp))]
    congr 1
    exact splitOn_join ts u fun x hx => h x (by simp only [List.mem_cons] at hx ⊢; exact .inr hx)

theorem join_noWs {c : UInt8} (hc : isWs c = false) : ∀ (ts : List Bytes), (∀ t ∈ ts, Tok c t) → ∀ x ∈ joinBy c ts, isWs x = false := by
  intro ts h x hx
  cases ts with
  | nil => simp [joinBy] at hx
  | cons t ts =>
    unfold joinBy at hx
    rw [List.mem_append, List.mem_flatMap] at hx
    rcases hx with hx | ⟨u, hu, hx⟩
    · exact (h t (by simp)).2.2 x hx
    · rcases List.mem_cons.1 hx with rfl | hx
      · exact hc
      · exact (h u (by simp [hu])).2.2 x hx

theorem splitBy_join {c : UInt8} (hc : isWs c = false) (ts : List Bytes) (hne : ts ≠ []) (h : ∀ t ∈ ts, Tok c t) : splitBy c (joinBy c ts) = ts := by
  unfold splitBy
  rw [trimWs_token (join_noWs hc ts h)]
  obtain ⟨t, l, rfl⟩ := List.exists_cons_of_ne_nil hne
  rw [splitOn_join l t fun x hx => (h x hx).2.1]
  have h1 : (t :: l).map trimWs = t :: l := by
    exact (List.map_congr_left (f := trimWs) (g := fun x => x) (fun x hx => trimWs_token (h x hx).2.2)).trans (List.map_id' _)
  have h2 : (t :: l).filter (fun t => !t.isEmpty) = t :: l := by
    rw [List.filter_eq_self]
    intro x hx
    have := (h x hx).1
    simpa using this
  simp only [h1, h2]
  rfl

/-! ### Version -/

theorem tok_dec (n : Nat) : Tok 46 (serialize n) ∧ Tok 58 (serialize n) :=
  ⟨⟨dec_ne n, fun h => (digit_ne (dec_digit n _ h)).2.2.2.1 rfl, dec_noWs n⟩, dec_ne n, fun h => (digit_ne (dec_digit n _ h)).2.2.2.2 rfl, dec_noWs n⟩

theorem join_ne {c : UInt8} {ts : List Bytes} (hne : ts ≠ []) (h : ∀ t ∈ ts, Tok c t) : joinBy c ts ≠ [] := by
  obtain ⟨t, l, rfl⟩ := List.exists_cons_of_ne_nil hne
  intro he
  have := List.append_eq_nil_iff.1 (show t ++ _ = [] from he)
  exact (h t (by simp)).1 this.1

theorem mapM_dec (limit : Nat) : ∀ ns : List Nat, (ns.map serialize).mapM (deserialize limit) = if ∀ n ∈ ns, n < limit then some ns else none
  | [] => by simp
  | n :: ns => by
    rw [List.map_cons, List.mapM_cons, deserialize_dec, mapM_dec limit ns]
    by_cases h : n < limit
    · by_cases h2 : ∀ n ∈ ns, n < limit
      · rw [if_pos h, if_pos h2, if_pos (by simpa using ⟨h, h2⟩)]; rfl
      · rw [if_neg h2, if_pos h, if_neg (fun hh : ∀ m ∈ n :: ns, m < limit => h2 fun m hm => hh m (List.mem_cons_of_mem _ hm))]; rfl
    · rw [if_neg h, if_neg (c := ∀ m ∈ n :: ns, m < limit) (fun hh => h (hh n List.mem_cons_self))]; rfl

/-- Numbers with points between them, anywhere in a stream, are read as a version exactly if there are two, three or four and each fits 32 bits; missing ones are
zero. -/
theorem C85_version_text (ns : List Nat) (hne : ns ≠ []) (s : Bytes) (hs : Framed s (joinBy 46 (ns.map serialize))) :
    Version.read s = if (2 ≤ ns.length ∧ ns.length ≤ 4) ∧ ∀ n ∈ ns, n < 2 ^ 32 then
      some ⟨UInt32.ofNat (ns.getD 0 0), UInt32.ofNat (ns.getD 1 0), UInt32.ofNat (ns.getD 2 0), UInt32.ofNat (ns.getD 3 0)⟩ else none := by
  have ht : ∀ t ∈ ns.map serialize, Tok 46 t := by
    intro t h
    obtain ⟨n, -, rfl⟩ := List.mem_map.1 h
    exact (tok_dec n).1
  have hne' : ns.map serialize ≠ [] := by simpa using hne
  unfold Version.read
  rw [word_framed hs (join_ne hne' ht) (join_noWs (by decide) _ ht), splitBy_join (by decide) _ hne' ht]
  dsimp only
  rw [mapM_dec, List.length_map]
  by_cases h1 : 2 ≤ ns.length ∧ ns.length ≤ 4
  · rw [if_neg (by omega)]
    by_cases h2 : ∀ n ∈ ns, n < 2 ^ 32
    · rw [if_pos h2, if_pos ⟨h1, h2⟩]
      show some (Version.ofSegments (ns.map UInt32.ofNat)) = _
      unfold Version.ofSegments
      have hg : ∀ i, (ns.map UInt32.ofNat).getD i 0 = UInt32.ofNat (ns.getD i 0) := by
        intro i
        rw [List.getD_eq_getElem?_getD, List.getD_eq_getElem?_getD, List.getElem?_map]
        cases ns[i]? <;> rfl
      rw [hg, hg, hg, hg]
    · rw [if_neg h2, if_neg (fun h => h2 h.2)]; rfl
  · rw [if_pos (by omega), if_neg (fun h => h1 h.1)]

theorem Version.write_eq (v : Version) : v.write = joinBy 46 (((v.segments.take (v.last + 1)).map UInt32.toNat).map serialize) := by
  unfold Version.write
  cases v.segments.take (v.last + 1) with
  | nil => rfl
  | cons x l => simp [joinBy, List.flatMap_map, show ascii "." = [46] from by decide]

/-- A version is read back from its text. -/
theorem C85_version (v : Version) (s : Bytes) (hs : Framed s v.write) : Version.read s = some v := by
  rw [v.write_eq] at hs
  have hl : (v.segments.take (v.last + 1)).length = v.last + 1 := by
    unfold Version.last Version.segments; split_ifs <;> rfl
  rw [C85_version_text _ (by intro h; have := congrArg List.length h; rw [List.length_map, hl] at this; simp at this) s hs, if_pos]
  · obtain ⟨a, b, c, d⟩ := v
    unfold Version.last Version.segments
    dsimp only
    by_cases hd : d = 0
    · by_cases hc : c = 0
      · simp [hc, hd]
      · simp [hc, hd]
    · simp [hd]
  · refine ⟨by rw [List.length_map, hl]; unfold Version.last; split_ifs <;> omega, ?_⟩
    intro n hn
    obtain ⟨x, -, rfl⟩ := List.mem_map.1 hn
    exact x.toNat_lt

/-- The number of a version. -/
def Version.number (v : Version) : Nat := ((v.major.toNat * 2 ^ 32 + v.minor.toNat) * 2 ^ 32 + v.subminor.toNat) * 2 ^ 32 + v.patch.toNat

/-- Versions are ordered as numbers of four digits: by the first segment in which they differ. -/
theorem C85_version_order (a b : Version) :
    (a.less b = true ↔ a.number < b.number) ∧ (a.lessEq b = true ↔ a.number ≤ b.number) ∧ (a.greater b = true ↔ b.number < a.number) ∧
    (a.greaterEq b = true ↔ b.number ≤ a.number) ∧ (a = b ↔ a.number = b.number) ∧ (a.isDefault = true ↔ a.number = 0) := by
  have hlt : ∀ a b : Version, a.less b = true ↔ a.number < b.number := by
    intro a b
    obtain ⟨a1, a2, a3, a4⟩ := a
    obtain ⟨b1, b2, b3, b4⟩ := b
    have := a1.toNat_lt; have := a2.toNat_lt; have := a3.toNat_lt; have := a4.toNat_lt
    have := b1.toNat_lt; have := b2.toNat_lt; have := b3.toNat_lt; have := b4.toNat_lt
    unfold Version.less Version.segments Version.number
    simp only [lexLess, UInt32.lt_iff_toNat_lt]
    split_ifs <;> simp <;> omega
  have heq : ∀ a b : Version, a = b ↔ a.number = b.number := by
    intro a b
    constructor
    · rintro rfl; rfl
    · obtain ⟨a1, a2, a3, a4⟩ := a
      obtain ⟨b1, b2, b3, b4⟩ := b
      have := a1.toNat_lt; have := a2.toNat_lt; have := a3.toNat_lt; have := a4.toNat_lt
      have := b1.toNat_lt; have := b2.toNat_lt; have := b3.toNat_lt; have := b4.toNat_lt
      unfold Version.number
      dsimp only
      intro h
      have e1 : a1.toNat = b1.toNat := by omega
      have e2 : a2.toNat = b2.toNat := by omega
      have e3 : a3.toNat = b3.toNat := by omega
      have e4 : a4.toNat = b4.toNat := by omega
      rw [UInt32.toNat_inj.1 e1, UInt32.toNat_inj.1 e2, UInt32.toNat_inj.1 e3, UInt32.toNat_inj.1 e4]
  have hle : ∀ a b : Version, a.lessEq b = true ↔ a.number ≤ b.number := by
    intro a b
    unfold Version.lessEq
    rw [Bool.or_eq_true, hlt, decide_eq_true_eq, heq]
    omega
  refine ⟨hlt a b, hle a b, hlt b a, hle b a, heq a b, ?_⟩
  unfold Version.isDefault
  rw [decide_eq_true_eq, heq]
  simp [Version.number]

/-- Texts that are not versions are read as versions: empty segments are skipped and what follows the digits of a segment is ignored. -/
theorem C85_version_counterexample : Version.read (ascii "1..2.") = some ⟨1, 2, 0, 0⟩ ∧ Version.read (ascii "1.2x.+3") = some ⟨1, 2, 3, 0⟩ := by decide +kernel

/-! ### Byte and hashes -/

/-- A byte is read back from its decimal text; larger numbers are refused. -/
theorem C85_byte (n : Nat) (s : Bytes) (hs : Framed s (serialize n)) : readByte s = if n < 256 then some (UInt8.ofNat n) else none := by
  unfold readByte deserialize8
  rw [word_framed hs (dec_ne n) (dec_noWs n), deserialize_dec]
  by_cases h : n < 2 ^ 16
  · rw [if_pos h]
    by_cases h2 : n < 256
    · rw [if_pos h2, Option.filter_some, if_pos (by simp; omega)]; rfl
    · rw [if_neg h2, Option.filter_some, if_neg (by simp; omega)]; rfl
  · rw [if_neg h, if_neg (by omega)]; rfl

theorem hex_ne {d : Bytes} (h : d ≠ []) : encode16 d ≠ [] := by
  cases d with
  | nil => exact absurd rfl h
  | cons a d => simp [encode16]

theorem hash_eq (d : Bytes) : encodeHash d = encode16 d.reverse := rfl

/-- Hashes are read back from their text. -/
theorem C85_hashes (h : Bytes) (s : Bytes) :
    (h.length = 20 → Framed s (writeHash160 h) → readHash160 s = some h) ∧ (h.length = 32 → Framed s (writeHash256 h) → readHash256 s = some h) := by
  constructor
  · intro hl hs
    unfold readHash160
    have hne : h ≠ [] := by rintro rfl; simp at hl
    rw [word_framed hs (hex_ne hne) (hex_noWs h), Radix.C31_array]
    unfold writeHash160
    rw [Radix.C31_decode_encode]
    simp [Option.filter, hl]
  · intro hl hs
    unfold readHash256
    have hne : h.reverse ≠ [] := by intro e; have := congrArg List.length e; simp [hl] at this
    rw [word_framed hs (hex_ne hne) (hex_noWs _), ← hl]
    exact (Radix.C31_hash h [] 0).1


/-! ### Data -/

theorem word_alphabet {s t : Bytes} {l : List UInt8} (hs : Framed s t) (hne : t ≠ []) (h : ∀ c ∈ t, c ∈ l) (hl : ∀ c ∈ l, isWs c = false) : word s = t :=
  word_framed hs hne fun c hc => hl c (h c hc)

theorem ne_of_dec {dec : Bytes → Option Bytes} {d t : Bytes} (h0 : dec [] = some []) (h : dec t = some d) (hd : d ≠ []) : t ≠ [] := by
  rintro rfl
  rw [h0] at h
  exact hd (Option.some.inj h).symm

/-- Data is read back from its text, in each of the four bases; in base 85 the data that has a text is that of whole groups of four bytes. -/
theorem C85_data (d s : Bytes) (hd : d ≠ []) :
    (Framed s (encode16 d) → readBase16 s = some d) ∧ (Framed s (Radix.encode58 d) → readBase58 s = some d) ∧
    (Framed s (Radix.encode64 d) → readBase64 s = some d) ∧
    ((Radix.encode85 d).isSome = decide (d.length % 4 = 0) ∧ ∀ t, Radix.encode85 d = some t → Framed s t → readBase85 s = some d) := by
  refine ⟨fun h => ?_, fun h => ?_, fun h => ?_, ?_, fun t ht h => ?_⟩
  · unfold readBase16
    rw [word_framed h (hex_ne hd) (hex_noWs d)]
    exact Radix.C31_decode_encode d
  · have hr := Radix.C32_decode_encode d
    unfold readBase58
    rw [word_alphabet h (ne_of_dec (by decide +kernel) hr hd) ((Radix.C32_accepts _).1 (by rw [hr]; rfl)) (by decide +kernel)]
    exact hr
  · have hr := Radix.C33_base64 d
    unfold readBase64
    rw [word_alphabet (l := 61 :: Radix.base64Chars) h (ne_of_dec (by decide +kernel) hr hd)
      (fun c hc => by rcases (Radix.C33_base64_text d).2 c hc with h | h <;> simp [h]) (by decide +kernel)]
    exact hr
  · by_cases h4 : d.length % 4 = 0
    · obtain ⟨t, ht, -⟩ := (Radix.C33_base85 d).1 h4
      rw [ht]; simp [h4]
    · rw [(Radix.C33_base85 d).2 h4]; simp [h4]
  · by_cases h4 : d.length % 4 = 0
    · obtain ⟨t', ht', hr, -, hc⟩ := (Radix.C33_base85 d).1 h4
      rw [ht] at ht'
      obtain rfl := Option.some.inj ht'
      unfold readBase85
      rw [word_alphabet h (ne_of_dec (by decide +kernel) hr hd) hc (by decide +kernel), hr]
      simp [h4]
    · rw [(Radix.C33_base85 d).2 h4] at ht; cases ht

/-! ### Points and checkpoints -/

theorem hex_chars {c : UInt8} (h : Radix.isBase16 c = true) : c ≠ 58 := by
  rintro rfl; revert h; decide

theorem tok_hex {d : Bytes} (h : d ≠ []) : Tok 58 (encode16 d) :=
  ⟨hex_ne h, fun hm => hex_chars (List.all_eq_true.1 (Radix.encode16_all d) 58 hm) rfl, hex_noWs d⟩

theorem tok_hash {h : Bytes} (hl : h.length = 32) : Tok 58 (encodeHash h) := by
  rw [hash_eq]
  exact tok_hex (by intro e; have := congrArg List.length e; simp [hl] at this)

/-- The tokens of a hash and a number. -/
theorem split_pair {h : Bytes} (hl : h.length = 32) (n : Nat) {s : Bytes} (hs : Framed s (encodeHash h ++ ascii ":" ++ serialize n)) :
    splitBy 58 (word s) = [encodeHash h, serialize n] := by
  have e : encodeHash h ++ ascii ":" ++ serialize n = joinBy 58 [encodeHash h, serialize n] := by
    simp [joinBy, show ascii ":" = [58] from by decide]
  have ht : ∀ t ∈ [encodeHash h, serialize n], Tok 58 t := by
    intro t hm
    simp only [List.mem_cons, List.not_mem_nil, or_false] at hm
    rcases hm with rfl | rfl
    · exact tok_hash hl
    · exact (tok_dec n).2
  rw [e] at hs
  rw [word_framed hs (join_ne (by simp) ht) (join_noWs (by decide) _ ht), splitBy_join (by decide) _ (by simp) ht]

theorem decode_hash {h : Bytes} (hl : h.length = 32) : decodeHash 32 (encodeHash h) = some h := by rw [← hl]; exact (Radix.C31_hash h [] 0).1

theorem readHash_self {h : Bytes} (hl : h.length = 32) : readHash256 (encodeHash h) = some h := (C85_hashes h _).2 hl (.self _)

/-- A point is read back from its text; an index that does not fit is refused. -/
theorem C85_point (h : Bytes) (hl : h.length = 32) (n : Nat) (s : Bytes) (hs : Framed s (writeHash256 h ++ ascii ":" ++ serialize n)) :
    readPoint s = if n < 2 ^ 32 then some (h, UInt32.ofNat n) else none := by
  unfold readPoint
  rw [split_pair hl n hs]
  dsimp only
  rw [deserialize_dec]
  by_cases hn : n < 2 ^ 32
  · rw [if_pos hn, if_pos hn]
    dsimp only
    rw [readHash_self hl]; rfl
  · rw [if_neg hn, if_neg hn]

/-- A checkpoint is read back from its text; a height that does not fit is refused. -/
theorem C85_checkpoint (h : Bytes) (hl : h.length = 32) (n : Nat) (s : Bytes) (hs : Framed s (Checkpoint.write ⟨h, n⟩)) :
    Checkpoint.read s = (if n < 2 ^ 64 then some ⟨h, n⟩ else none) ∧ Checkpoint.fromString (encodeHash h) n = some ⟨h, n⟩ := by
  constructor
  · unfold Checkpoint.read
    rw [split_pair hl n hs]
    dsimp only
    rw [decode_hash hl, deserialize_dec]
    dsimp only
    by_cases hn : n < 2 ^ 64
    · rw [if_pos hn, if_pos hn]; rfl
    · rw [if_neg hn, if_neg hn]; rfl
  · unfold Checkpoint.fromString
    rw [decode_hash hl]; rfl

/-- A height is at a checkpoint if one has it, and under the checkpoints if one has it or a greater one. -/
theorem C85_checkpoints (l : List Checkpoint) (height : Nat) (hash : Bytes) :
    (isAt l height = true ↔ ∃ c ∈ l, c.height = height) ∧ (isUnder l height = true ↔ ∃ c ∈ l, height ≤ c.height) ∧
    ((∀ c ∈ l, ∀ d ∈ l, c.height = d.height → c = d) → (isConflict l hash height = true ↔ ∃ c ∈ l, c.height = height ∧ c.hash ≠ hash)) ∧
    (isConflict l hash height = true → ∃ c ∈ l, c.height = height ∧ c.hash ≠ hash) := by
  have hc : isConflict l hash height = true → ∃ c ∈ l, c.height = height ∧ c.hash ≠ hash := by
    unfold isConflict
    cases hf : l.find? fun c => height == c.height with
    | none => simp
    | some c =>
      intro h
      exact ⟨c, List.mem_of_find?_eq_some hf, by have := List.find?_some hf; simpa using (eq_comm.1 (by simpa using this)), by simpa using h⟩
  refine ⟨?_, ?_, ?_, hc⟩
  · unfold isAt
    rw [List.any_eq_true]
    constructor
    · rintro ⟨c, h, e⟩; exact ⟨c, h, (beq_iff_eq.1 e).symm⟩
    · rintro ⟨c, h, e⟩; exact ⟨c, h, beq_iff_eq.2 e.symm⟩
  · simp [isUnder]
  · intro hu
    refine ⟨hc, ?_⟩
    rintro ⟨c, hm, rfl, hne⟩
    unfold isConflict
    cases hf : l.find? fun d => c.height == d.height with
    | none => have := List.find?_eq_none.1 hf c hm; simp at this
    | some d =>
      have h1 := List.find?_some hf
      have := hu c hm d (List.mem_of_find?_eq_some hf) (by simpa using h1)
      subst this
      simpa using hne

/-- With two checkpoints at one height only the first is compared. -/
theorem C85_conflict_counterexample : ∃ l hash height, isConflict l hash height = false ∧ ∃ c ∈ l, c.height = height ∧ c.hash ≠ hash :=
  ⟨[⟨[1], 5⟩, ⟨[2], 5⟩], [1], 5, by decide, ⟨[2], 5⟩, by decide, rfl, by decide⟩

/-- Texts that are no points or checkpoints are read as such: what follows the digits of the number is ignored. -/
theorem C85_point_counterexample : ∃ s, readPoint s = some (List.replicate 32 0, 7) ∧ Checkpoint.read s = some ⟨List.replicate 32 0, 7⟩ ∧
    s = List.replicate 64 48 ++ ascii ":7x" := ⟨_, by decide +kernel, by decide +kernel, rfl⟩

/-! ### Transactions, headers, blocks, scripts -/

theorem ok_of {α : Type} {d : Bytes} {f : Bytes → α × RS} (h : (f d).2.good = true) :
    (some d).bind (fun d => let r := f d; if r.2.good then some r.1 else none) = some (f d).1 := if_pos h

theorem tx_aux (x : Tx) (hw : x.Writable) (rest d : Bytes) (hd : d = x.toData true ++ rest) (hl : d.length < 2 ^ 63) :
    (Tx.read true (RS.init d)).1.eqv x = true ∧ (Tx.read true (RS.init d)).1.toData true = x.toData true ∧ (Tx.read true (RS.init d)).2.good = true := by
  rw [hd] at hl
  have h := C08_roundtrip x hw rest hl
  rw [← hd] at h
  exact ⟨h.2.1, h.2.2.1, h.2.2.2.1⟩
theorem tx_back (x : Tx) (hw : x.Writable) (d : Bytes) (hd : d = x.toData true) (hl : d.length < 2 ^ 63) :
    (Tx.read true (RS.init d)).1.eqv x = true ∧ (Tx.read true (RS.init d)).1.toData true = x.toData true ∧ (Tx.read true (RS.init d)).2.good = true :=
  tx_aux x hw [] d (by rw [List.append_nil]; exact hd) hl
theorem header_aux (x : Header) (rest d : Bytes) (hd : d = x.toData ++ rest) (hl : d.length < 2 ^ 63) :
    (Header.read (RS.init d)).1.eqv x = true ∧ (Header.read (RS.init d)).1.toData = x.toData ∧ (Header.read (RS.init d)).2.good = true := by
  rw [hd] at hl
  have h := C10_header_roundtrip x rest hl
  rw [← hd] at h
  exact ⟨h.2.2.1, h.2.2.2.1, h.2.2.2.2.1⟩
theorem header_back (x : Header) (d : Bytes) (hd : d = x.toData) (hl : d.length < 2 ^ 63) :
    (Header.read (RS.init d)).1.eqv x = true ∧ (Header.read (RS.init d)).1.toData = x.toData ∧ (Header.read (RS.init d)).2.good = true :=
  header_aux x [] d (by rw [List.append_nil]; exact hd) hl
theorem block_aux (x : Block) (hw : x.Writable) (rest d : Bytes) (hd : d = x.toData true ++ rest) (hl : d.length < 2 ^ 63) :
    (Block.read true (RS.init d)).1.eqv x = true ∧ (Block.read true (RS.init d)).1.toData true = x.toData true ∧ (Block.read true (RS.init d)).2.good = true := by
  rw [hd] at hl
  have h := C10_block_roundtrip x hw rest hl
  rw [← hd] at h
  exact ⟨h.2.1, h.2.2.1, h.2.2.2.1⟩
theorem block_back (x : Block) (hw : x.Writable) (d : Bytes) (hd : d = x.toData true) (hl : d.length < 2 ^ 63) :
    (Block.read true (RS.init d)).1.eqv x = true ∧ (Block.read true (RS.init d)).1.toData true = x.toData true ∧ (Block.read true (RS.init d)).2.good = true :=
  block_aux x hw [] d (by rw [List.append_nil]; exact hd) hl

/-- A transaction, a header and a block are read back from their text, as values that write the same data. -/
theorem C85_chain (s : Bytes) :
    (∀ t : Tx, t.Writable → (t.toData true).length < 2 ^ 63 → t.toData true ≠ [] → Framed s (writeTx t) →
      ∃ t', readTx s = some t' ∧ t'.eqv t = true ∧ t'.toData true = t.toData true) ∧
    (∀ h : Header, Framed s (writeHeader h) → ∃ h', readHeader s = some h' ∧ h'.eqv h = true ∧ h'.toData = h.toData) ∧
    (∀ b : Block, b.Writable → (b.toData true).length < 2 ^ 63 → b.toData true ≠ [] → Framed s (writeBlock b) →
      ∃ b', readBlock s = some b' ∧ b'.eqv b = true ∧ b'.toData true = b.toData true) := by
  have hw : ∀ d : Bytes, d ≠ [] → Framed s (encode16 d) → decode16 (word s) = some d := fun d hd h => (C85_data d s hd).1 h
  refine ⟨fun t ht hl hne hs => ?_, fun h hs => ?_, fun b hb hl hne hs => ?_⟩
  · have h1 := hw _ hne hs
    revert h1
    generalize hd : t.toData true = d at hl
    intro h1
    obtain ⟨h2, h3, h4⟩ := tx_back t ht d hd.symm hl
    refine ⟨_, ?_, h2, h3.trans hd⟩
    unfold readTx
    rw [h1]
    exact ok_of (f := fun d => Tx.read true (RS.init d)) h4
  · have hlen := (C09_header_size h)
    have hlen : h.toData.length = 80 := by rw [← hlen.1]; exact hlen.2
    have h1 := hw _ (by intro e; rw [e] at hlen; simp at hlen) hs
    revert h1
    generalize hd : h.toData = d at hlen
    intro h1
    obtain ⟨h2, h3, h4⟩ := header_back h d hd.symm (by rw [hlen]; decide)
    refine ⟨_, ?_, h2, h3.trans hd⟩
    unfold readHeader
    rw [h1]
    exact ok_of (f := fun d => Header.read (RS.init d)) h4
  · have h1 := hw _ hne hs
    revert h1
    generalize hd : b.toData true = d at hl
    intro h1
    obtain ⟨h2, h3, h4⟩ := block_back b hb d hd.symm hl
    refine ⟨_, ?_, h2, h3.trans hd⟩
    unfold readBlock
    rw [h1]
    exact ok_of (f := fun d => Block.read true (RS.init d)) h4

/-- A script is read back from its text. -/
theorem C85_script (sc : Script) (h : ∀ o ∈ sc.ops, o.Consistent ∨ (o.underflow = false ∧ o.data = [])) :
    readScript (writeScript sc) = some (Script.ofOps sc.ops) := by
  unfold readScript writeScript
  rw [ScriptText.C42_script _ _ h]
  rfl

/-! ### Inputs and outputs -/

theorem mnemonic_colon : ∀ n < 256, 58 ∉ ScriptText.toMnemonic ⟨true, true, true⟩ (UInt8.ofNat n) := by decide +kernel

theorem script_colon (sc : Script) : 58 ∉ writeScript sc := by
  have hop : ∀ o : Op, 58 ∉ ScriptText.toText ⟨true, true, true⟩ o := by
    intro o hm
    have hx : ∀ d, 58 ∉ encode16 d := fun d hm => hex_chars (List.all_eq_true.1 (Radix.encode16_all d) 58 hm) rfl
    unfold ScriptText.toText at hm
    split at hm
    · revert hm; decide
    · split at hm
      · rw [List.mem_append, List.mem_append] at hm
        rcases hm with (hm | hm) | hm
        · revert hm; decide
        · exact hx _ hm
        · revert hm; decide
      · split at hm
        · have := mnemonic_colon o.code.toNat o.code.toNat_lt
          rw [UInt8.ofNat_toNat] at this
          exact this hm
        · rw [List.mem_append, List.mem_append, List.mem_append] at hm
          rcases hm with ((hm | hm) | hm) | hm
          · revert hm; decide
          · unfold ScriptText.toPrefix at hm
            revert hm
            split_ifs <;> decide
          · exact hx _ hm
          · revert hm; decide
  unfold writeScript scriptText ScriptText.joined
  cases hs : sc.ops.map (ScriptText.toText ⟨true, true, true⟩) with
  | nil => simp
  | cons t ts =>
    have hall : ∀ x ∈ t :: ts, 58 ∉ x := by
      intro x hx
      rw [← hs] at hx
      obtain ⟨o, -, rfl⟩ := List.mem_map.1 hx
      exact hop o
    dsimp only
    rw [List.mem_append, List.mem_flatMap]
    rintro (h | ⟨u, hu, h⟩)
    · exact hall t (by simp) h
    · rcases List.mem_append.1 h with h | h
      · revert h; decide
      · exact hall u (by simp [hu]) h

/-- The word of a text that ends in a text without whitespace. -/
theorem word_append (a b : Bytes) (hb : ∀ c ∈ b, isWs c = false) (hne : b ≠ []) :
    ∃ a', (∀ c ∈ a', c ∈ a ∧ isWs c = false) ∧ (word (a ++ b) = a' ∨ word (a ++ b) = a' ++ b) := by
  unfold word
  induction a with
  | nil =>
    refine ⟨[], by simp, .inr ?_⟩
    exact word_self hb
  | cons x a ih =>
    cases hx : isWs x with
    | true =>
      obtain ⟨a', h1, h2⟩ := ih
      refine ⟨a', fun c hc => ⟨List.mem_cons_of_mem _ (h1 c hc).1, (h1 c hc).2⟩, ?_⟩
      rw [List.cons_append, List.dropWhile_cons, hx]
      exact h2
    | false =>
      rw [List.cons_append, List.dropWhile_cons, hx]
      simp only [Bool.false_eq_true, if_false]
      have hgen : ∀ a : Bytes, ∃ a', (∀ c ∈ a', c ∈ a ∧ isWs c = false) ∧
          ((a ++ b).takeWhile (fun c => !isWs c) = a' ∨ (a ++ b).takeWhile (fun c => !isWs c) = a' ++ b) := by
        intro a
        induction a with
        | nil =>
          refine ⟨[], by simp, .inr ?_⟩
          have := List.takeWhile_append_of_pos (p := fun c => !isWs c) (l₁ := b) (l₂ := []) (by intro c hc; simp [hb c hc])
          simpa using this
        | cons y a ih2 =>
          cases hy : isWs y with
          | true => exact ⟨[], by simp, .inl (by rw [List.cons_append, List.takeWhile_cons, hy]; rfl)⟩
          | false =>
            obtain ⟨a', h1, h2⟩ := ih2
            refine ⟨y :: a', ?_, ?_⟩
            · intro c hc
              rcases List.mem_cons.1 hc with rfl | hc
              · exact ⟨List.mem_cons_self, hy⟩
              · exact ⟨List.mem_cons_of_mem _ (h1 c hc).1, (h1 c hc).2⟩
            · rw [List.cons_append, List.takeWhile_cons, hy]
              rcases h2 with h2 | h2
              · exact .inl (by simp [h2])
              · exact .inr (by simp [h2])
      exact hgen (x :: a)

theorem split_single {a : Bytes} (hc : 58 ∉ a) (hw : ∀ c ∈ a, isWs c = false) : (splitBy 58 a).length = 1 := by
  unfold splitBy
  rw [trimWs_token hw, splitOn_none hc]
  cases a with
  | nil => rfl
  | cons x a => simp [trimWs_token hw]

theorem trim_nil : trimWs [] = [] := rfl

/-- The tokens of a text without colon and whitespace, a colon and tokens. -/
theorem split_lead {a : Bytes} (hc : 58 ∉ a) (hw : ∀ c ∈ a, isWs c = false) (ts : List Bytes) (hne : ts ≠ []) (h : ∀ t ∈ ts, Tok 58 t) :
    splitBy 58 (a ++ 58 :: joinBy 58 ts) = if a = [] then ts else a :: ts := by
  by_cases ha : a = []
  · subst ha
    rw [if_pos rfl]
    unfold splitBy
    rw [List.nil_append, trimWs_token (by
      intro c hm
      rcases List.mem_cons.1 hm with rfl | hm
      · decide
      · exact join_noWs (by decide) ts h c hm)]
    have := splitBy_join (by decide) ts hne h
    unfold splitBy at this
    rw [trimWs_token (join_noWs (by decide) ts h)] at this
    rw [show splitOn 58 (58 :: joinBy 58 ts) = [] :: splitOn 58 (joinBy 58 ts) from splitOn_append (t := []) (by simp)]
    rw [List.map_cons, trim_nil, List.filter_cons]
    exact this
  · rw [if_neg ha]
    have e : a ++ 58 :: joinBy 58 ts = joinBy 58 (a :: ts) := by
      obtain ⟨t, l, rfl⟩ := List.exists_cons_of_ne_nil hne
      simp [joinBy]
    rw [e]
    exact splitBy_join (by decide) _ (by simp) (by
      intro t ht
      rcases List.mem_cons.1 ht with rfl | ht
      · exact ⟨ha, hc, hw⟩
      · exact h t ht)

/-- No output is read back from its text: the test of the value is inverted. -/
theorem C85_output_counterexample (junk : Nat) (value : UInt64) (sc : Script) : readOutput junk (writeOutput value sc) = none := by
  unfold readOutput writeOutput
  rw [List.append_assoc]
  have hb : ∀ c ∈ ascii ":" ++ serialize value.toNat, isWs c = false := by
    intro c hc
    rcases List.mem_append.1 hc with hc | hc
    · rw [show ascii ":" = [58] from by decide, List.mem_singleton] at hc; subst hc; decide
    · exact dec_noWs _ c hc
  obtain ⟨a, h1, h2⟩ := word_append (writeScript sc) _ hb (by simp [show ascii ":" = [58] from by decide])
  have hc : 58 ∉ a := fun h => script_colon sc (h1 58 h).1
  have hw : ∀ c ∈ a, isWs c = false := fun c h => (h1 c h).2
  rcases h2 with h2 | h2
  · rw [h2]
    have := split_single hc hw
    obtain ⟨x, hx⟩ := List.length_eq_one_iff.1 this
    rw [hx]
  · have e : a ++ (ascii ":" ++ serialize value.toNat) = a ++ 58 :: joinBy 58 [serialize value.toNat] := by
      simp [joinBy, show ascii ":" = [58] from by decide]
    rw [h2, e, split_lead hc hw _ (by simp) (by simpa using (tok_dec _).2)]
    by_cases ha : a = []
    · rw [if_pos ha]
    · rw [if_neg ha]
      dsimp only
      have hd := deserialize_dec (2 ^ 64) value.toNat
      rw [if_pos value.toNat_lt] at hd
      unfold deserialize at hd
      dsimp only at hd
      cases hr : (deserializeOut (2 ^ 64) (serialize value.toNat)).1 with
      | true => rfl
      | false => rw [hr] at hd; cases hd

theorem dec_short : ∀ (k n : Nat), n < 10 ^ (k + 1) → (serialize n).length ≤ k + 1
  | 0, n, h => by
    unfold serialize Base10.formatDec
    rw [if_pos (by omega)]; simp
  | k + 1, n, h => by
    unfold serialize Base10.formatDec
    split
    · simp
    · have := dec_short k (n / 10) (by rw [Nat.pow_succ] at h; omega)
      unfold serialize at this
      rw [List.length_append, List.length_singleton]
      omega

/-- No input is read back from its text: there is nothing between the script and the point. -/
theorem C85_input_counterexample (hash : Bytes) (hh : hash.length = 32) (index : UInt32) (sc : Script) (sequence : UInt32) :
    readInput (writeInput hash index sc sequence) = none := by
  have e : writeInput hash index sc sequence =
      writeScript sc ++ (encodeHash hash ++ 58 :: joinBy 58 [serialize index.toNat, serialize sequence.toNat]) := by
    simp [writeInput, writePoint, writeHash256, joinBy, show ascii ":" = [58] from by decide]
  have ht : ∀ t ∈ [serialize index.toNat, serialize sequence.toNat], Tok 58 t := by
    intro t hm
    simp only [List.mem_cons, List.not_mem_nil, or_false] at hm
    rcases hm with rfl | rfl <;> exact (tok_dec _).2
  have hx := tok_hash hh
  obtain ⟨a, h1, h2⟩ := word_append (writeScript sc) (encodeHash hash ++ 58 :: joinBy 58 [serialize index.toNat, serialize sequence.toNat]) (by
    intro c hc
    rcases List.mem_append.1 hc with hc | hc
    · exact hx.2.2 c hc
    · rcases List.mem_cons.1 hc with rfl | hc
      · decide
      · exact join_noWs (by decide) _ ht c hc) (by simp)
  have hc : 58 ∉ a := fun h => script_colon sc (h1 58 h).1
  have hw : ∀ c ∈ a, isWs c = false := fun c h => (h1 c h).2
  rw [e]
  unfold readInput
  dsimp only
  rcases h2 with h2 | h2
  · rw [h2, if_pos (by rw [split_single hc hw]; decide)]
  · rw [h2, ← List.append_assoc, split_lead (by
      rw [List.mem_append]; rintro (h | h)
      · exact hc h
      · exact hx.2.1 h) (by
      intro c h
      rcases List.mem_append.1 h with h | h
      · exact hw c h
      · exact hx.2.2 c h) _ (by simp) ht, if_neg (fun h => hx.1 (List.append_eq_nil_iff.1 h).2)]
    rw [if_neg (by simp), if_neg (by simp)]
    dsimp only
    have hp : readPoint ([a ++ encodeHash hash, serialize index.toNat, serialize sequence.toNat].getD 1 [] ++ ascii ":" ++
        [a ++ encodeHash hash, serialize index.toNat, serialize sequence.toNat].getD 2 []) = none := by
      have e2 : [a ++ encodeHash hash, serialize index.toNat, serialize sequence.toNat].getD 1 [] ++ ascii ":" ++
        [a ++ encodeHash hash, serialize index.toNat, serialize sequence.toNat].getD 2 [] = joinBy 58 [serialize index.toNat, serialize sequence.toNat] := by
        simp [joinBy, show ascii ":" = [58] from by decide]
      rw [e2]
      unfold readPoint
      rw [word_self (join_noWs (by decide) _ ht), splitBy_join (by decide) _ (by simp) ht]
      dsimp only
      have hn : readHash256 (serialize index.toNat) = none := by
        unfold readHash256
        rw [word_self (dec_noWs _), (Radix.C31_hash [] _ 32).2, Radix.C31_array]
        have hlen := dec_short 9 index.toNat (by have := index.toNat_lt; omega)
        cases hd : decode16 (serialize index.toNat) with
        | none => rfl
        | some d =>
          have := Radix.C31_encode_decode _ _ hd
          have := congrArg List.length this
          rw [Radix.encode16_length, List.length_map] at this
          rw [Option.filter_some, if_neg (by simp; omega)]
          rfl
      rw [hn]
      cases deserialize (2 ^ 32) (serialize sequence.toNat) <;> rfl
    rw [hp]

/-! ### The hypotheses are met -/

example : Framed (ascii "  1.0.3 rest") (ascii "1.0.3") ∧ Version.write ⟨1, 0, 3, 0⟩ = ascii "1.0.3" ∧ Version.read (ascii "  1.0.3 rest") = some ⟨1, 0, 3, 0⟩ :=
  ⟨⟨ascii "  ", ascii " rest", by decide, by decide, by decide⟩, by decide +kernel, by decide +kernel⟩
example : Version.write ⟨1, 2, 0, 7⟩ = ascii "1.2.0.7" ∧ Version.write ⟨3, 0, 0, 0⟩ = ascii "3.0" := by decide +kernel
example : readByte (ascii "255") = some 255 ∧ readByte (ascii "256") = none := by decide +kernel
example : Checkpoint.read (List.replicate 62 48 ++ ascii "ff:18446744073709551615") = some ⟨255 :: List.replicate 31 0, 18446744073709551615⟩ ∧
    Checkpoint.read (List.replicate 62 48 ++ ascii "ff:18446744073709551616") = none := by decide +kernel
example : isUnder [⟨[1], 5⟩, ⟨[2], 9⟩] 7 = true ∧ isUnder [⟨[1], 5⟩, ⟨[2], 9⟩] 10 = false ∧ isConflict [⟨[1], 5⟩, ⟨[2], 9⟩] [3] 9 = true := by decide
example (s : Bytes) (hs : Framed s (writeTx exampleTx)) : ∃ t, readTx s = some t ∧ t.toData true = exampleTx.toData true := by
  obtain ⟨t, h1, -, h2⟩ := (C85_chain s).1 exampleTx exampleTx_writable (by decide +kernel) (by decide +kernel) hs
  exact ⟨t, h1, h2⟩
example : writeOutput 7 (Script.ofOps [{ code := 172 }]) = ascii "checksig:7" ∧ readOutput 0 (ascii "checksig:7") = none ∧
    (readOutput 0 (ascii "checksig:x")).isSome = true := by decide +kernel

end Verif.Config
