import Verif.Model.Image
import Verif.Spec.Image
import Verif.Props.Bits

/-! # C99: images of QR codes -/

namespace Verif.Image
open Verif Verif.Bit Verif.Bit.Spec Verif.Image.Spec

/-! ## Bits and rows -/

theorem getLeft_testBit (b : UInt8) : ∀ o < 8, getLeft b o = b.toNat.testBit (7 - o) :=
  forall_byte (p := fun b => ∀ o < 8, getLeft b o = b.toNat.testBit (7 - o)) (by decide +kernel) b

theorem odd_bit (b : UInt8) : (b &&& 0x01 != 0) = (b.toNat % 2 == 1) :=
  forall_byte (p := fun b => (b &&& 0x01 != 0) = (b.toNat % 2 == 1)) (by decide +kernel) b

/-- The bit at a place of a row, as in the bits of the bytes. -/
theorem bitAt_bits (d : Bytes) (start x : Nat) (h : start + x / 8 < d.length) : (bitsOf d)[8 * start + x]? = some (bitAt d start x) := by
  have hb : d[start + x / 8]? = some (d[start + x / 8]'h) := List.getElem?_eq_getElem h
  have := bitsOf_getElem d (start + x / 8) (x % 8) (Nat.mod_lt _ (by decide)) _ hb
  rw [show 8 * (start + x / 8) + x % 8 = 8 * start + x by omega, getLeft_testBit _ _ (Nat.mod_lt _ (by decide))] at this
  rw [this, bitAt, List.getD_eq_getElem?_getD, hb]
  rfl

theorem foldBits_spec (bits : List Bool) : ∀ w : Writer, w.WF → (bits.foldl Writer.writeBit w).WF ∧ (bits.foldl Writer.writeBit w).bits = w.bits ++ bits := by
  induction bits with
  | nil => intro w h; exact ⟨h, by simp⟩
  | cons b bits ih =>
    intro w h
    obtain ⟨h1, h2⟩ := writeBit_spec w h b
    obtain ⟨h3, h4⟩ := ih _ h1
    exact ⟨h3, by rw [List.foldl_cons, h4, h2]; simp⟩

theorem foldRows_spec (rows : List Bytes) : ∀ w : Writer, w.WF → (rows.foldl Writer.writeBytes w).WF ∧ (rows.foldl Writer.writeBytes w).bits = w.bits ++ bitsOf rows.flatten := by
  induction rows with
  | nil => intro w h; exact ⟨h, by simp [bitsOf]⟩
  | cons r rows ih =>
    intro w h
    obtain ⟨h1, h2⟩ := writeBytes_spec r w h
    obtain ⟨h3, h4⟩ := ih _ h1
    exact ⟨h3, by rw [List.foldl_cons, h4, h2, List.flatten_cons, bitsOf_append, List.append_assoc]⟩

theorem packBits_spec (bits : List Bool) : (packBits bits).length = (bits.length + 7) / 8 ∧
    ∃ k < 8, bitsOf (packBits bits) = bits ++ List.replicate k false := by
  obtain ⟨h1, h2⟩ := foldBits_spec bits _ init_wf
  obtain ⟨k, hk, h3⟩ := flush_spec _ h1
  have h4 : bitsOf (packBits bits) = bits ++ List.replicate k false := by
    unfold packBits; rw [h3, h2]; rfl
  refine ⟨?_, k, hk, h4⟩
  have := congrArg List.length h4
  rw [bitsOf_length] at this
  simp at this
  omega

theorem packRows_eq (rows : List Bytes) : packRows rows = rows.flatten := by
  obtain ⟨h1, h2⟩ := foldRows_spec rows _ init_wf
  obtain ⟨k, hk, h3⟩ := flush_spec _ h1
  have h4 : bitsOf (packRows rows) = bitsOf rows.flatten ++ List.replicate k false := by
    unfold packRows; rw [h3, h2]; rfl
  have hl := congrArg List.length h4
  rw [List.length_append, bitsOf_length, bitsOf_length, List.length_replicate] at hl
  have : k = 0 := by omega
  subst this
  exact bitsOf_inj (by simpa using h4)

/-- A list with every element repeated. -/
theorem repeated_get {α β : Type} (f : α → β) (s : Nat) (hs : 0 < s) : ∀ (l : List α) (i : Nat),
    (l.flatMap fun a => List.replicate s (f a))[i]? = l[i / s]?.map f
  | [], i => by simp
  | a :: l, i => by
    rw [List.flatMap_cons]
    by_cases h : i < s
    · rw [List.getElem?_append_left (by simpa using h), Nat.div_eq_of_lt h]
      simp [h]
    · rw [List.getElem?_append_right (by simp; omega), List.length_replicate, repeated_get f s hs l (i - s)]
      have : i / s = (i - s) / s + 1 := by
        rw [Nat.div_eq_sub_div hs (by omega)]
      rw [this]; simp

theorem repeated_length {α β : Type} (f : α → β) (s : Nat) (l : List α) : (l.flatMap fun a => List.replicate s (f a)).length = l.length * s := by
  induction l with
  | nil => simp
  | cons a l ih => simp [List.flatMap_cons, ih, Nat.succ_mul, Nat.add_comm]

/-- Something between two margins. -/
theorem framed_get {α β : Type} (f : α → β) (s m : Nat) (blank : β) (l : List α) (i : Nat) (hi : i < 2 * m + s * l.length) :
    (List.replicate m blank ++ (l.flatMap fun a => List.replicate s (f a)) ++ List.replicate m blank)[i]? =
    some (if m ≤ i ∧ i < m + s * l.length then (l[(i - m) / s]?.map f).getD blank else blank) := by
  have hlen := repeated_length f s l
  rw [Nat.mul_comm] at hlen
  by_cases h1 : i < m
  · rw [if_neg (by omega), List.getElem?_append_left (by simp; omega), List.getElem?_append_left (by simpa using h1)]
    simp [h1]
  · by_cases h2 : i < m + s * l.length
    · rw [if_pos ⟨by omega, h2⟩, List.getElem?_append_left (by rw [List.length_append, hlen]; simpa using h2),
        List.getElem?_append_right (by simp; omega), List.length_replicate]
      have hs : 0 < s := by
        rcases Nat.eq_zero_or_pos s with h | h
        · subst h; omega
        · exact h
      rw [repeated_get f s hs]
      have : (i - m) / s < l.length := by
        rw [Nat.div_lt_iff_lt_mul hs, Nat.mul_comm]; omega
      rw [List.getElem?_eq_getElem this]; rfl
    · rw [if_neg (by omega), List.getElem?_append_right (by rw [List.length_append, hlen]; simp; omega), List.length_append, hlen, List.length_replicate,
        List.getElem?_replicate, if_pos (by omega)]

theorem framed_length {α β : Type} (f : α → β) (s m : Nat) (blank : β) (l : List α) :
    (List.replicate m blank ++ (l.flatMap fun a => List.replicate s (f a)) ++ List.replicate m blank).length = 2 * m + s * l.length := by
  rw [List.length_append, List.length_append, repeated_length]
  simp [Nat.mul_comm]; omega

/-- Rows of one length, one after the other. -/
theorem rows_length (n : Nat) : ∀ (rows : List Bytes), (∀ r ∈ rows, r.length = n) → rows.flatten.length = rows.length * n
  | [], _ => by simp
  | r :: rows, h => by
    rw [List.flatten_cons, List.length_append, rows_length n rows (fun x hx => h x (by simp [hx])), h r (by simp), List.length_cons, Nat.succ_mul, Nat.add_comm]

theorem rows_getD (n : Nat) : ∀ (rows : List Bytes) (y i : Nat) (r : Bytes), (∀ r ∈ rows, r.length = n) → rows[y]? = some r → i < n →
    rows.flatten.getD (y * n + i) 0 = r.getD i 0
  | [], _, _, _, _, h, _ => by simp at h
  | a :: rows, 0, i, r, h, hy, hi => by
    have ha := h a (by simp)
    simp at hy; subst hy
    rw [List.flatten_cons, List.getD_eq_getElem?_getD, List.getD_eq_getElem?_getD, Nat.zero_mul, Nat.zero_add, List.getElem?_append_left (by omega)]
  | a :: rows, y + 1, i, r, h, hy, hi => by
    have ha := h a (by simp)
    have ih := rows_getD n rows y i r (fun x hx => h x (by simp [hx])) (by simpa using hy) hi
    rw [List.flatten_cons, ← ih, List.getD_eq_getElem?_getD, List.getD_eq_getElem?_getD, List.getElem?_append_right (by rw [Nat.succ_mul]; omega)]
    congr 2
    rw [Nat.succ_mul]; omega

theorem bitAt_rows (n : Nat) (rows : List Bytes) (y x : Nat) (r : Bytes) (h : ∀ r ∈ rows, r.length = n) (hy : rows[y]? = some r) (hx : x / 8 < n) :
    bitAt rows.flatten (y * n) x = bitAt r 0 x := by
  unfold bitAt
  rw [rows_getD n rows y (x / 8) r h hy hx, Nat.zero_add]

/-! ## The rows of the image -/

theorem rowBits_length (coded : Bytes) (w s m row : Nat) : (rowBits coded w s m row).length = 2 * m + s * w := by
  have := framed_length (fun column => (coded.getD (row * w + column) 0) &&& 0x01 != 0) s m false (List.range w)
  rwa [List.length_range] at this

theorem rowBits_get (coded : Bytes) (w s m row x : Nat) (hx : x < 2 * m + s * w) : (rowBits coded w s m row)[x]? =
    some (decide (m ≤ x ∧ x < m + s * w) && ((coded.getD (row * w + (x - m) / s) 0).toNat % 2 == 1)) := by
  have := framed_get (fun column => (coded.getD (row * w + column) 0) &&& 0x01 != 0) s m false (List.range w) x (by simpa using hx)
  rw [List.length_range] at this
  unfold rowBits
  rw [this]
  congr 1
  by_cases h : m ≤ x ∧ x < m + s * w
  · have hs : 0 < s := by
      rcases Nat.eq_zero_or_pos s with hz | hz
      · subst hz; omega
      · exact hz
    have hi : (x - m) / s < w := by rw [Nat.div_lt_iff_lt_mul hs, Nat.mul_comm]; omega
    rw [if_pos h, List.getElem?_eq_getElem (by simpa using hi), List.getElem_range]
    simp only [Option.map_some, Option.getD_some, odd_bit, decide_eq_true h, Bool.true_and]
  · rw [if_neg h, decide_eq_false h, Bool.false_and]

/-- A packed row: as many bytes as it needs, its bits in order, and nothing after them. -/
theorem packed_row (coded : Bytes) (w s m row x : Nat) (hx : x / 8 < (2 * m + s * w + 7) / 8) : bitAt (packBits (rowBits coded w s m row)) 0 x =
    (decide (m ≤ x ∧ x < m + s * w) && ((coded.getD (row * w + (x - m) / s) 0).toNat % 2 == 1)) := by
  obtain ⟨h1, k, hk, h2⟩ := packBits_spec (rowBits coded w s m row)
  have h3 := bitAt_bits (packBits (rowBits coded w s m row)) 0 x (by rw [h1, rowBits_length]; omega)
  rw [Nat.mul_zero, Nat.zero_add, h2] at h3
  by_cases h : x < 2 * m + s * w
  · rw [List.getElem?_append_left (by rw [rowBits_length]; exact h), rowBits_get coded w s m row x h] at h3
    exact (Option.some.inj h3).symm
  · rw [List.getElem?_append_right (by rw [rowBits_length]; omega), rowBits_length, List.getElem?_replicate] at h3
    by_cases hk2 : x - (2 * m + s * w) < k
    · rw [if_pos hk2] at h3
      rw [← Option.some.inj h3, decide_eq_false (by omega), Bool.false_and]
    · rw [if_neg hk2] at h3; cases h3

theorem bitAt_blank (n x : Nat) : bitAt (List.replicate n 0) 0 x = false := by
  unfold bitAt
  have : (List.replicate n (0 : UInt8)).getD (0 + x / 8) 0 = 0 := by
    rw [List.getD_eq_getElem?_getD, List.getElem?_replicate]
    split <;> rfl
  rw [this]; simp

theorem imageRows_length (coded : Bytes) (w s m : Nat) : (imageRows coded w s m).length = 2 * m + s * w := by
  have := framed_length (fun row => packBits (rowBits coded w s m row)) s m (List.replicate ((2 * m + s * w + 7) / 8) 0) (List.range w)
  rwa [List.length_range] at this

theorem imageRows_width (coded : Bytes) (w s m : Nat) : ∀ r ∈ imageRows coded w s m, r.length = (2 * m + s * w + 7) / 8 := by
  intro r hr
  unfold imageRows at hr
  simp only [List.mem_append, List.mem_replicate, List.mem_flatMap, List.mem_range] at hr
  rcases hr with (⟨_, rfl⟩ | ⟨row, _, _, rfl⟩) | ⟨_, rfl⟩
  · simp
  · rw [(packBits_spec _).1, rowBits_length]
  · simp

theorem imageRows_bit (coded : Bytes) (w s m y x : Nat) (hy : y < 2 * m + s * w) (hx : x / 8 < (2 * m + s * w + 7) / 8) :
    ∃ r, (imageRows coded w s m)[y]? = some r ∧ bitAt r 0 x = drawn coded w s m x y := by
  have := framed_get (fun row => packBits (rowBits coded w s m row)) s m (List.replicate ((2 * m + s * w + 7) / 8) 0) (List.range w) y (by simpa using hy)
  rw [List.length_range] at this
  refine ⟨_, this, ?_⟩
  unfold drawn
  by_cases h : m ≤ y ∧ y < m + s * w
  · have hs : 0 < s := by
      rcases Nat.eq_zero_or_pos s with hz | hz
      · subst hz; omega
      · exact hz
    have hi : (y - m) / s < w := by rw [Nat.div_lt_iff_lt_mul hs, Nat.mul_comm]; omega
    rw [if_pos h, List.getElem?_eq_getElem (by simpa using hi), List.getElem_range, Option.map_some, Option.getD_some, packed_row _ _ _ _ _ _ hx]
    congr 1
    by_cases hb : m ≤ x ∧ x < m + s * w
    · rw [decide_eq_true hb, decide_eq_true ⟨hb.1, hb.2, h.1, h.2⟩]
    · rw [decide_eq_false hb, decide_eq_false (fun h => hb ⟨h.1, h.2.1⟩)]
  · rw [if_neg h, bitAt_blank, decide_eq_false (fun hh => h hh.2.2), Bool.false_and]

/-- **C99 (pixels).** From one byte for each of `width`² modules, with 32 bits for the number of modules and 64 for the number of
pixels, the result has one row for each row of pixels, each in the least whole number of bytes, and each bit, most significant first, is
set just when the pixel is in a module whose byte is odd; bits that pad a row are clear. -/
theorem C99_pixels (coded : Bytes) (w s m : Nat) (hw : w * w < 2 ^ 32) (hc : coded.length = w * w) (hp : 0 < 2 * m + s * w)
    (hm : (2 * m + s * w) * (2 * m + s * w) ≤ maxSize) :
    (toPixels coded w s m).length = (2 * m + s * w) * ((2 * m + s * w + 7) / 8) ∧
    ∀ x y, x / 8 < (2 * m + s * w + 7) / 8 → y < 2 * m + s * w →
      bitAt (toPixels coded w s m) (y * ((2 * m + s * w + 7) / 8)) x = drawn coded w s m x y := by
  have he : toPixels coded w s m = (imageRows coded w s m).flatten := by
    unfold toPixels
    dsimp only
    rw [if_neg (by rw [Nat.mod_eq_of_lt hw]; simpa using hc), if_neg (by omega),
      if_neg (by rw [Nat.not_lt, Nat.le_div_iff_mul_le hp]; exact hm), if_neg (by omega), packRows_eq]
  rw [he]
  refine ⟨by rw [rows_length _ _ (imageRows_width coded w s m), imageRows_length], fun x y hx hy => ?_⟩
  obtain ⟨r, hr, hb⟩ := imageRows_bit coded w s m y x hy hx
  rw [bitAt_rows _ _ y x r (imageRows_width coded w s m) hr hx, hb]

/-- **C99 (rejected).** Nothing is drawn from data that is not of one byte for each module, or into no pixels. -/
theorem C99_rejected (coded : Bytes) (w s m : Nat) (hw : w * w < 2 ^ 32) (h : coded.length ≠ w * w ∨ 2 * m + s * w = 0) :
    toPixels coded w s m = [] := by
  unfold toPixels
  dsimp only
  rw [Nat.mod_eq_of_lt hw]
  rcases h with h | h
  · rw [if_pos h]
  · split <;> first | rfl | rw [if_pos h]

/-! ## The file -/

theorem u16_be (v : Nat) (h : v < 2 ^ 16) : (UInt8.ofNat (v / 256 % 256)).toNat * 256 + (UInt8.ofNat (v % 256)).toNat = v := by
  simp only [UInt8.toNat_ofNat']
  omega

theorem u32_be (v : Nat) (h : v < 2 ^ 32) : ((UInt8.ofNat (v / 256 / 256 / 256 % 256)).toNat * 256 + (UInt8.ofNat (v / 256 / 256 % 256)).toNat) * 65536 +
    ((UInt8.ofNat (v / 256 % 256)).toNat * 256 + (UInt8.ofNat (v % 256)).toNat) = v := by
  simp only [UInt8.toNat_ofNat']
  omega

def head : Bytes := [0x4d, 0x4d, 0, 42, 0, 0, 0, 8, 0, 10]

def entries (w r n : Nat) : List Bytes := [entryFull 0x0100 w, entryFull 0x0101 r, entryHalf 0x0103 1, entryHalf 0x0106 0, entryFull 0x0111 156,
  entryFull 0x0116 r, entryFull 0x0117 n, entryRatio 0x011a 136, entryRatio 0x011b 144, entryHalf 0x0128 1]

def foot : Bytes := beBytes 4 0 ++ beBytes 2 0 ++ beBytes 4 72 ++ beBytes 4 1 ++ beBytes 4 72 ++ beBytes 4 1 ++ beBytes 4 0xbaadf00d

theorem header_shape (w r n : Nat) (data : Bytes) : tiffHeader w r n ++ data = head ++ ((entries w r n).flatten ++ (foot ++ data)) := by
  have : beBytes 2 0x4d4d ++ (beBytes 2 0x002a ++ (beBytes 4 8 ++ beBytes 2 0x000a)) = head := by simp [beBytes, leBytes, head]
  rw [← this]
  have h1 : directory0 = 8 := by decide
  have h2 : xResolution = 136 := by decide
  have h3 : yResolution = 144 := by decide
  have h4 : strip0 = 156 := by decide
  unfold tiffHeader entries foot
  rw [h1, h2, h3, h4]
  clear h1 h2 h3 h4 this
  generalize beBytes = bb, entryFull = ef, entryHalf = eh, entryRatio = er
  simp only [List.append_assoc, List.flatten_cons, List.flatten_nil, List.nil_append]

theorem entries_width (w r n : Nat) : ∀ e ∈ entries w r n, e.length = 12 := by
  intro e he
  simp only [entries, List.mem_cons, List.not_mem_nil, or_false] at he
  rcases he with h | h | h | h | h | h | h | h | h | h <;> subst h <;> simp [entryFull, entryHalf, entryRatio]

theorem header_length (w r n : Nat) : (tiffHeader w r n).length = 156 := by
  have := congrArg List.length (header_shape w r n [])
  rw [List.append_nil] at this
  rw [this, List.length_append, List.length_append, rows_length 12 _ (entries_width w r n)]
  simp [head, entries, foot]

theorem header_getD (w r n k : Nat) (data : Bytes) : (tiffHeader w r n ++ data).getD (156 + k) 0 = data.getD k 0 := by
  rw [List.getD_eq_getElem?_getD, List.getD_eq_getElem?_getD, List.getElem?_append_right (by rw [header_length]; omega), header_length, show 156 + k - 156 = k by omega]

theorem entry_getD (w r n k i : Nat) (data e : Bytes) (he : (entries w r n)[k]? = some e) (hi : i < 12) :
    (tiffHeader w r n ++ data).getD (10 + (k * 12 + i)) 0 = e.getD i 0 := by
  have hl := rows_length 12 _ (entries_width w r n)
  have hk : k < (entries w r n).length := (List.getElem?_eq_some_iff.1 he).1
  rw [← rows_getD 12 (entries w r n) k i e (entries_width w r n) he hi, header_shape, List.getD_eq_getElem?_getD, List.getD_eq_getElem?_getD,
    List.getElem?_append_right (by show 10 ≤ _; omega)]
  rw [show 10 + (k * 12 + i) - head.length = k * 12 + i by show 10 + (k * 12 + i) - 10 = _; omega, List.getElem?_append_left (by rw [hl]; omega)]

theorem entry_u16 (w r n k i : Nat) (data e : Bytes) (he : (entries w r n)[k]? = some e) (hi : i < 11) :
    u16 (tiffHeader w r n ++ data) (10 + (k * 12 + i)) = u16 e i := by
  unfold u16
  rw [entry_getD w r n k i data e he (by omega), show 10 + (k * 12 + i) + 1 = 10 + (k * 12 + (i + 1)) by omega, entry_getD w r n k (i + 1) data e he (by omega)]

theorem entry_u32 (w r n k i : Nat) (data e : Bytes) (he : (entries w r n)[k]? = some e) (hi : i < 9) :
    u32 (tiffHeader w r n ++ data) (10 + (k * 12 + i)) = u32 e i := by
  unfold u32
  rw [entry_u16 w r n k i data e he (by omega), show 10 + (k * 12 + i) + 2 = 10 + (k * 12 + (i + 2)) by omega, entry_u16 w r n k (i + 2) data e he (by omega)]

theorem entry_value (w r n k : Nat) (data e : Bytes) (he : (entries w r n)[k]? = some e) :
    entryValue (tiffHeader w r n ++ data) (10 + k * 12) = entryValue e 0 := by
  unfold entryValue
  have h4 := entry_u32 w r n k 4 data e he (by decide)
  have h2 := entry_u16 w r n k 2 data e he (by decide)
  have h8 := entry_u16 w r n k 8 data e he (by decide)
  have h9 := entry_u32 w r n k 8 data e he (by decide)
  simp only [← Nat.add_assoc] at h4 h2 h8 h9
  rw [h4, h2, h8, h9]

section
variable (w r n : Nat) (data : Bytes)

theorem h_start : u16 (tiffHeader w r n ++ data) 0 = 0x4d4d ∧ u16 (tiffHeader w r n ++ data) 2 = 42 ∧ u32 (tiffHeader w r n ++ data) 4 = 8 ∧
    u16 (tiffHeader w r n ++ data) 8 = 10 := by
  rw [header_shape]
  generalize (entries w r n).flatten ++ (foot ++ data) = x
  simp [u16, u32, head]

theorem full_bytes (t v : Nat) : entryFull t v = [UInt8.ofNat (t / 256 % 256), UInt8.ofNat (t % 256), 0, 4, 0, 0, 0, 1,
    UInt8.ofNat (v / 256 / 256 / 256 % 256), UInt8.ofNat (v / 256 / 256 % 256), UInt8.ofNat (v / 256 % 256), UInt8.ofNat (v % 256)] := by
  simp [entryFull, beBytes, leBytes]

theorem half_bytes (t v : Nat) : entryHalf t v = [UInt8.ofNat (t / 256 % 256), UInt8.ofNat (t % 256), 0, 3, 0, 0, 0, 1,
    UInt8.ofNat (v / 256 % 256), UInt8.ofNat (v % 256), 0, 0] := by
  simp [entryHalf, beBytes, leBytes]

theorem ratio_bytes (t v : Nat) : entryRatio t v = [UInt8.ofNat (t / 256 % 256), UInt8.ofNat (t % 256), 0, 5, 0, 0, 0, 1,
    UInt8.ofNat (v / 256 / 256 / 256 % 256), UInt8.ofNat (v / 256 / 256 % 256), UInt8.ofNat (v / 256 % 256), UInt8.ofNat (v % 256)] := by
  simp [entryRatio, beBytes, leBytes]

theorem full_tag (t v : Nat) (h : t < 2 ^ 16) : u16 (entryFull t v) 0 = t := by
  rw [full_bytes, u16]
  simp only [List.getD_cons_zero, List.getD_cons_succ, Nat.zero_add]
  exact u16_be t h

theorem half_tag (t v : Nat) (h : t < 2 ^ 16) : u16 (entryHalf t v) 0 = t := by
  rw [half_bytes, u16]
  simp only [List.getD_cons_zero, List.getD_cons_succ, Nat.zero_add]
  exact u16_be t h

theorem ratio_tag (t v : Nat) (h : t < 2 ^ 16) : u16 (entryRatio t v) 0 = t := by
  rw [ratio_bytes, u16]
  simp only [List.getD_cons_zero, List.getD_cons_succ, Nat.zero_add]
  exact u16_be t h

theorem full_value (t v : Nat) (h : v < 2 ^ 32) : entryValue (entryFull t v) 0 = some v := by
  have := u32_be v h
  rw [full_bytes, entryValue]
  generalize UInt8.ofNat (t / 256 % 256) = a, UInt8.ofNat (t % 256) = b, UInt8.ofNat (v / 256 / 256 / 256 % 256) = v3, UInt8.ofNat (v / 256 / 256 % 256) = v2,
    UInt8.ofNat (v / 256 % 256) = v1, UInt8.ofNat (v % 256) = v0 at this
  simp [u32, u16, this]

theorem half_value (t v : Nat) (h : v < 2 ^ 16) : entryValue (entryHalf t v) 0 = some v := by
  have := u16_be v h
  rw [half_bytes, entryValue]
  generalize UInt8.ofNat (t / 256 % 256) = a, UInt8.ofNat (t % 256) = b, UInt8.ofNat (v / 256 % 256) = v1, UInt8.ofNat (v % 256) = v0 at this
  simp [u32, u16, this]

theorem h_tags : u16 (tiffHeader w r n ++ data) 10 = 0x100 ∧ u16 (tiffHeader w r n ++ data) 22 = 0x101 ∧ u16 (tiffHeader w r n ++ data) 34 = 0x103 ∧
    u16 (tiffHeader w r n ++ data) 46 = 0x106 ∧ u16 (tiffHeader w r n ++ data) 58 = 0x111 ∧ u16 (tiffHeader w r n ++ data) 70 = 0x116 ∧
    u16 (tiffHeader w r n ++ data) 82 = 0x117 ∧ u16 (tiffHeader w r n ++ data) 94 = 0x11a ∧ u16 (tiffHeader w r n ++ data) 106 = 0x11b ∧
    u16 (tiffHeader w r n ++ data) 118 = 0x128 :=
  ⟨(entry_u16 w r n 0 0 data _ rfl (by decide)).trans (full_tag _ _ (by decide)), (entry_u16 w r n 1 0 data _ rfl (by decide)).trans (full_tag _ _ (by decide)),
    (entry_u16 w r n 2 0 data _ rfl (by decide)).trans (half_tag _ _ (by decide)), (entry_u16 w r n 3 0 data _ rfl (by decide)).trans (half_tag _ _ (by decide)),
    (entry_u16 w r n 4 0 data _ rfl (by decide)).trans (full_tag _ _ (by decide)), (entry_u16 w r n 5 0 data _ rfl (by decide)).trans (full_tag _ _ (by decide)),
    (entry_u16 w r n 6 0 data _ rfl (by decide)).trans (full_tag _ _ (by decide)), (entry_u16 w r n 7 0 data _ rfl (by decide)).trans (ratio_tag _ _ (by decide)),
    (entry_u16 w r n 8 0 data _ rfl (by decide)).trans (ratio_tag _ _ (by decide)), (entry_u16 w r n 9 0 data _ rfl (by decide)).trans (half_tag _ _ (by decide))⟩

theorem h_fields (hw : w < 2 ^ 32) (hr : r < 2 ^ 32) (hn : n < 2 ^ 32) :
    field (tiffHeader w r n ++ data) 0x100 = some w ∧ field (tiffHeader w r n ++ data) 0x101 = some r ∧ field (tiffHeader w r n ++ data) 0x103 = some 1 ∧
    field (tiffHeader w r n ++ data) 0x106 = some 0 ∧ field (tiffHeader w r n ++ data) 0x111 = some 156 ∧ field (tiffHeader w r n ++ data) 0x116 = some r ∧
    field (tiffHeader w r n ++ data) 0x117 = some n := by
  obtain ⟨s0, s2, s4, s8⟩ := h_start w r n data
  obtain ⟨t0, t1, t2, t3, t4, t5, t6, t7, t8, t9⟩ := h_tags w r n data
  have e0 := (entry_value w r n 0 data _ rfl).trans (full_value 0x100 w hw)
  have e1 := (entry_value w r n 1 data _ rfl).trans (full_value 0x101 r hr)
  have e2 := (entry_value w r n 2 data _ rfl).trans (half_value 0x103 1 (by decide))
  have e3 := (entry_value w r n 3 data _ rfl).trans (half_value 0x106 0 (by decide))
  have e4 := (entry_value w r n 4 data _ rfl).trans (full_value 0x111 156 (by decide))
  have e5 := (entry_value w r n 5 data _ rfl).trans (full_value 0x116 r hr)
  have e6 := (entry_value w r n 6 data _ rfl).trans (full_value 0x117 n hn)
  generalize tiffHeader w r n ++ data = f at *
  simp only [Nat.zero_mul, Nat.one_mul, Nat.reduceMul, Nat.reduceAdd] at e0 e1 e2 e3 e4 e5 e6
  simp [field, directory, findEntry, s0, s2, s4, s8, t0, t1, t2, t3, t4, t5, t6, e0, e1, e2, e3, e4, e5, e6]

end

/-- **C99 (file).** A file is written just for a positive width and data of whole rows of it, not empty, of less than 2^32 bytes. -/
theorem C99_accepted (data : Bytes) (w : Nat) : (toImage data w).isSome ↔
    0 < w ∧ data ≠ [] ∧ data.length < 2 ^ 32 ∧ ((w + 7) / 8) ∣ data.length := by
  unfold toImage
  by_cases h0 : w = 0 ∨ data = []
  · rw [if_pos h0]
    exact ⟨fun h => by simp at h, fun h => by
      rcases h0 with h0 | h0
      · omega
      · exact absurd h0 h.2.1⟩
  · rw [if_neg h0]
    by_cases h1 : 2 ^ 32 - 1 < data.length
    · rw [if_pos h1]
      exact ⟨fun h => by simp at h, fun h => by omega⟩
    · rw [if_neg h1]
      dsimp only
      rw [Nat.dvd_iff_mod_eq_zero]
      by_cases h2 : data.length % ((w + 7) / 8) ≠ 0
      · rw [if_pos h2]
        exact ⟨fun h => by simp at h, fun h => absurd h.2.2.2 h2⟩
      · rw [if_neg h2]
        exact ⟨fun _ => ⟨by omega, fun h => h0 (.inr h), by omega, Decidable.not_not.1 h2⟩, fun _ => rfl⟩

/-- **C99 (picture).** A reader of TIFF files finds in the file a picture of the given width, with as many rows as there are in
the data, and whose pixels are the bits of the data; its directory begins at an even place and its entries are in order, as the format demands. -/
theorem C99_picture (data f : Bytes) (w : Nat) (hw : w < 2 ^ 16) (hf : toImage data w = some f) :
    picture f = some { width := w, length := data.length / ((w + 7) / 8), black := fun x y => bitAt data (y * ((w + 7) / 8)) x } ∧
    directory f = some 8 ∧ sorted f 8 = true := by
  have hsome := (C99_accepted data w).1 (by rw [hf]; rfl)
  obtain ⟨h1, h2, h3, h4⟩ := hsome
  have he : f = tiffHeader w (data.length / ((w + 7) / 8)) data.length ++ data := by
    unfold toImage at hf
    rw [if_neg (fun h => h.elim (by omega) h2), if_neg (by omega)] at hf
    dsimp only at hf
    rw [if_neg (by rw [Nat.dvd_iff_mod_eq_zero] at h4; simpa using h4)] at hf
    exact (Option.some.inj hf).symm
  have hr : data.length / ((w + 7) / 8) < 2 ^ 32 := Nat.lt_of_le_of_lt (Nat.div_le_self _ _) h3
  obtain ⟨f0, f1, f2, f3, f4, f5, f6⟩ := h_fields w (data.length / ((w + 7) / 8)) data.length data (by omega) hr h3
  obtain ⟨s0, s2, s4, s8⟩ := h_start w (data.length / ((w + 7) / 8)) data.length data
  obtain ⟨t0, t1, t2, t3, t4, t5, t6, t7, t8, t9⟩ := h_tags w (data.length / ((w + 7) / 8)) data.length data
  have hlen := header_length w (data.length / ((w + 7) / 8)) data.length
  have hget := fun k => header_getD w (data.length / ((w + 7) / 8)) data.length k data
  rw [← he] at f0 f1 f2 f3 f4 f5 f6 s0 s2 s4 s8 t0 t1 t2 t3 t4 t5 t6 t7 t8 t9
  simp only [← he] at hget
  have hl : f.length = 156 + data.length := by rw [he, List.length_append, hlen]
  have hm : data.length / ((w + 7) / 8) * ((w + 7) / 8) = data.length := Nat.div_mul_cancel h4
  refine ⟨?_, ?_, ?_⟩
  · unfold picture
    rw [f0, f1, f2, f3, f4, f5, f6]
    simp only [true_and]
    rw [if_pos ⟨hm.symm, hl⟩]
    congr 2
    funext x y
    unfold bitAt
    rw [Nat.add_assoc, hget]
  · unfold directory; rw [if_pos ⟨s0, s2⟩, s4]
  · unfold sorted
    rw [s8]
    have : List.range (10 - 1) = [0, 1, 2, 3, 4, 5, 6, 7, 8] := by decide
    rw [this]
    simp [t0, t1, t2, t3, t4, t5, t6, t7, t8, t9]

/-- **C99 (image).** The image of a QR code: whatever square code the coding library returns for the text, if the version is not above 40 and
the width in pixels is positive and below 2^16, a file is written, and the picture in it is a square of that width in which
a pixel is black just when it is in a black module, each module drawn as a square of `scale` pixels within the white margin. -/
theorem C99_image (d : Bytes) (w v s m : Nat) (hv : v ≤ 40) (hw0 : 0 < w) (hw : w * w < 2 ^ 32) (hd : d.length = w * w)
    (hp : 0 < 2 * m + s * w) (hlt : 2 * m + s * w < 2 ^ 16) :
    ∃ f p, encode (some (w, d)) v s m = some f ∧ picture f = some p ∧ p.width = 2 * m + s * w ∧ p.length = 2 * m + s * w ∧
    ∀ x y, x < 2 * m + s * w → y < 2 * m + s * w → p.black x y = drawn d w s m x y := by
  have hmax : (2 * m + s * w) * (2 * m + s * w) ≤ maxSize := by
    have : (2 * m + s * w) * (2 * m + s * w) ≤ 2 ^ 16 * 2 ^ 16 := Nat.mul_le_mul (by omega) (by omega)
    unfold maxSize; omega
  obtain ⟨hl, hb⟩ := C99_pixels d w s m hw hd hp hmax
  generalize hW : 2 * m + s * w = W at *
  have hrb : 0 < (W + 7) / 8 := by omega
  have hsz : W * ((W + 7) / 8) < 2 ^ 32 := by
    have : W * ((W + 7) / 8) ≤ 2 ^ 16 * 2 ^ 13 := Nat.mul_le_mul (by omega) (by omega)
    omega
  have hacc := (C99_accepted (toPixels d w s m) W).2 ⟨hp, fun h => by
    rw [h] at hl
    have := Nat.mul_pos hp hrb
    rw [← hl] at this
    exact absurd this (by simp), by omega, by rw [hl]; exact Nat.dvd_mul_left _ _⟩
  obtain ⟨f, hf⟩ := Option.isSome_iff_exists.1 hacc
  have hpic := (C99_picture _ f W hlt hf).1
  refine ⟨f, _, ?_, hpic, rfl, ?_, fun x y hx hy => hb x y (by omega) hy⟩
  · unfold encode
    rw [if_neg (by omega)]
    dsimp only
    rw [if_neg (by omega), hW, if_neg (by omega), hf]
  · show (toPixels d w s m).length / ((W + 7) / 8) = W
    rw [hl, Nat.mul_div_cancel _ hrb]

/-- **C99 (no image).** Without a code, above version 40, or without pixels, or with 2^16 or more of them in a row, there is no image. -/
theorem C99_no_image (code : Option (Nat × Bytes)) (v s m : Nat) (h : 40 < v ∨ code = none ∨ ∃ w d, code = some (w, d) ∧ (w = 0 ∨ 2 * m + s * w = 0 ∨ 2 ^ 16 ≤ 2 * m + s * w)) :
    encode code v s m = none := by
  unfold encode
  rcases h with h | h | ⟨w, d, h, hw⟩
  · rw [if_pos h]
  · subst h; split <;> rfl
  · subst h
    split
    · rfl
    · dsimp only
      split
      · rfl
      · split
        · rfl
        · have h0 : 2 * m + s * w = 0 := by omega
          unfold toImage
          rw [if_pos (.inl h0)]

/-- **C99 (finding).** The number of modules is taken modulo 2^32, so no data at all is accepted for 65536 by 65536 modules, and drawn in white. -/
theorem C99_wrap_counterexample : (toPixels [] 65536 1 0).length = 65536 * 8192 := by
  have he : toPixels [] 65536 1 0 = (imageRows [] 65536 1 0).flatten := by
    unfold toPixels
    dsimp only
    rw [if_neg (by decide), if_neg (by decide), if_neg (by decide), if_neg (by decide), packRows_eq]
  rw [he, rows_length _ _ (imageRows_width [] 65536 1 0), imageRows_length]

/-- The hypotheses are met: a code of two by two modules, the diagonal black, three pixels each and a margin of one. -/
example : ∃ f p, encode (some (2, [1, 0, 2, 3])) 0 3 1 = some f ∧ picture f = some p ∧ p.width = 8 ∧ p.length = 8 ∧
    ∀ x y, x < 8 → y < 8 → p.black x y = drawn [1, 0, 2, 3] 2 3 1 x y :=
  C99_image [1, 0, 2, 3] 2 0 3 1 (by decide) (by decide) (by decide) (by decide) (by decide) (by decide)
example : drawn [1, 0, 2, 3] 2 3 1 3 1 = true ∧ drawn [1, 0, 2, 3] 2 3 1 4 1 = false ∧ drawn [1, 0, 2, 3] 2 3 1 4 4 = true ∧ drawn [1, 0, 2, 3] 2 3 1 0 4 = false := by decide
example : toPixels [1, 0, 2, 3] 2 3 1 = [0, 0x70, 0x70, 0x70, 0x0e, 0x0e, 0x0e, 0] := by decide +kernel
example : (toImage [0x80, 0] 1).isSome ∧ ¬ (toImage [0x80, 0] 0).isSome ∧ ¬ (toImage [1, 2, 3] 9).isSome :=
  ⟨(C99_accepted _ _).2 (by decide), fun h => absurd ((C99_accepted _ _).1 h) (by decide), fun h => absurd ((C99_accepted _ _).1 h) (by decide)⟩

end Verif.Image
