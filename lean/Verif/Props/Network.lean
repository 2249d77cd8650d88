import Verif.Spec.Network
import Verif.Props.Config
import Mathlib.Tactic.ByContra
/-!
# C86: network addresses are read back from their text
-/
namespace Verif.Network
open Verif
open Verif.Radix (ascii)
open Verif.Config (word serialize deserialize deserialize8 Framed word_framed deserialize_dec)
open Verif.ScriptText (isWs)
open Verif.Network.Spec

/-! ### Numbers -/

theorem value_inj : ∀ (k : Nat) (d : Bytes), d.length ≤ k → d ≠ [] → (∀ c ∈ d, Base10.isDigit c = true) → (d.length > 1 → d.head? ≠ some 48) →
    Base10.formatDec (Base10.digitsVal d) = d := by
  intro k
  induction k with
  | zero => intro d h1 h2; exact absurd (List.length_eq_zero_iff.1 (by omega)) h2
  | succ k ih =>
    intro d h1 h2 h3 h4
    obtain ⟨i, c, rfl⟩ : ∃ i c, d = i ++ [c] := ⟨d.dropLast, d.getLast h2, (List.dropLast_concat_getLast h2).symm⟩
    have hv : Base10.digitsVal (i ++ [c]) = Base10.digitsVal i * 10 + (c.toNat - 48) := by
      unfold Base10.digitsVal; rw [List.foldl_append]; rfl
    have hc := (Base10.isDigit_iff c).1 (h3 c (by simp))
    unfold Base10.Spec.Digit at hc
    rw [UInt8.le_iff_toNat_le, UInt8.le_iff_toNat_le, show (48 : UInt8).toNat = 48 from rfl, show (57 : UInt8).toNat = 57 from rfl] at hc
    rw [hv]
    have hcv : UInt8.ofNat (48 + (c.toNat - 48)) = c := by
      apply UInt8.toNat_inj.1
      have := c.toNat_lt
      rw [UInt8.toNat_ofNat']
      omega
    by_cases hi : i = []
    · subst hi
      have h0 : Base10.digitsVal [] = 0 := rfl
      rw [h0]
      unfold Base10.formatDec
      rw [if_pos (by omega)]
      simp only [List.nil_append, Nat.zero_mul, Nat.zero_add]
      rw [hcv]
    · have hr := ih i (by simp at h1; omega) hi (fun x hx => h3 x (by simp [hx])) (by
        intro _ hh
        refine h4 (by simp; have := List.length_pos_iff.2 hi; omega) ?_
        rw [List.head?_append, hh]; rfl)
      have hpos : 0 < Base10.digitsVal i := by
        rcases Nat.eq_zero_or_pos (Base10.digitsVal i) with h0 | h0
        · exfalso
          rw [h0] at hr
          have : i = [48] := by rw [← hr]; decide +kernel
          exact h4 (by simp [this]) (by rw [this]; rfl)
        · exact h0
      unfold Base10.formatDec
      rw [if_neg (by omega), show (Base10.digitsVal i * 10 + (c.toNat - 48)) / 10 = Base10.digitsVal i from by omega,
        show (Base10.digitsVal i * 10 + (c.toNat - 48)) % 10 = c.toNat - 48 from by omega, hr, hcv]

/-- A reader of the decimal text of numbers below a limit. -/
def Reads (read : Bytes → Option Nat) (limit : Nat) : Prop := ∀ n, read (serialize n) = if n < limit then some n else none

theorem reads16 : Reads (deserialize (2 ^ 16)) (2 ^ 16) := deserialize_dec _

theorem reads8 : Reads deserialize8 256 := by
  intro n
  unfold deserialize8
  rw [deserialize_dec]
  by_cases h : n < 2 ^ 16
  · rw [if_pos h]
    by_cases h2 : n < 256
    · rw [if_pos h2, Option.filter_some, if_pos (by simp; omega)]
    · rw [if_neg h2, Option.filter_some, if_neg (by simp; omega)]
  · rw [if_neg h, if_neg (by omega)]; rfl

theorem tw_split {p : UInt8 → Bool} {t r : Bytes} (ht : ∀ c ∈ t, p c = true) (hr : ∀ c, r.head? = some c → p c = false) :
    (t ++ r).takeWhile p = t ∧ (t ++ r).drop t.length = r := by
  refine ⟨?_, List.drop_left⟩
  rw [List.takeWhile_append_of_pos ht]
  cases r with
  | nil => simp
  | cons x r => rw [List.takeWhile_cons, hr x rfl]; simp

theorem tw_parts (p : UInt8 → Bool) (s : Bytes) : s = s.takeWhile p ++ s.drop (s.takeWhile p).length ∧ (∀ c ∈ s.takeWhile p, p c = true) ∧
    (∀ c, (s.drop (s.takeWhile p).length).head? = some c → p c = false) := by
  induction s with
  | nil => simp
  | cons x s ih =>
    rw [List.takeWhile_cons]
    cases hx : p x with
    | true =>
      simp only [if_true, List.length_cons, List.drop_succ_cons, List.cons_append]
      refine ⟨congrArg _ ih.1, ?_, ih.2.2⟩
      intro c hc
      rcases List.mem_cons.1 hc with rfl | hc
      · exact hx
      · exact ih.2.1 c hc
    | false => simp [hx]

theorem digit_dec (n : Nat) : ∀ c ∈ Base10.formatDec n, Base10.isDigit c = true := Config.dec_digit n

theorem nonzero_head {n : Nat} (hn : 0 < n) : ∃ d l, Base10.formatDec n = d :: l ∧ isNonzero d = true := by
  obtain ⟨-, h2, h3, h4⟩ := Base10.formatDec_spec n
  cases hf : Base10.formatDec n with
  | nil => exact absurd hf h3
  | cons d l =>
    refine ⟨d, l, rfl, ?_⟩
    rw [hf] at h2 h4
    have h0 : d ≠ 48 := by rintro rfl; have := h4 rfl; omega
    have hd := h2 d (by simp)
    have : ∀ d : UInt8, Base10.isDigit d = true → d ≠ 48 → isNonzero d = true := by apply Der.byte_forall; decide +kernel
    exact this d ((Base10.isDigit_iff d).2 hd) h0

/-- A number that is written is matched and read. -/
theorem opt_fwd {mark : UInt8} {more limit : Nat} {read : Bytes → Option Nat} (hread : Reads read limit) (hlim : limit ≤ 10 ^ (more + 1))
    {t r : Bytes} {n : Nat} (h : NumText mark limit t n) (hr : ∀ c, r.head? = some c → Base10.isDigit c = false ∧ c ≠ mark) :
    ∃ d, optNumber mark more (t ++ r) = some (d, r) ∧ toInteger read d = some n := by
  rcases h with ⟨rfl, rfl⟩ | ⟨hpos, hn, rfl⟩
  · refine ⟨[], ?_, rfl⟩
    rw [List.nil_append]
    unfold optNumber
    cases r with
    | nil => rfl
    | cons c r => dsimp only; rw [if_neg (hr c rfl).2]
  · obtain ⟨d, l, hd, hz⟩ := nonzero_head hpos
    refine ⟨Base10.formatDec n, ?_, ?_⟩
    · unfold optNumber
      rw [List.cons_append]
      dsimp only
      obtain ⟨h1, h2⟩ := tw_split (digit_dec n) (fun c hc => (hr c hc).1)
      rw [if_pos rfl, h1, h2]
      have hlen : (Base10.formatDec n).length ≤ more + 1 := Config.dec_short more n (by omega)
      rw [hd] at hlen ⊢
      dsimp only
      rw [hz, if_pos (by simp at hlen ⊢; exact hlen)]
    · unfold toInteger
      rw [if_neg (by rw [hd]; simp)]
      exact (hread n).trans (if_pos hn)

/-- What is matched and read was written, with nothing left that could have been matched. -/
theorem opt_bwd {mark : UInt8} {more limit : Nat} {read : Bytes → Option Nat} (hread : Reads read limit)
    {s d r : Bytes} {n : Nat} (h : optNumber mark more s = some (d, r)) (hn : toInteger read d = some n) :
    ∃ t, s = t ++ r ∧ NumText mark limit t n := by
  unfold optNumber at h
  cases s with
  | nil =>
    obtain ⟨rfl, rfl⟩ := Prod.mk.inj (Option.some.inj h)
    exact ⟨[], rfl, .inl ⟨rfl, (Option.some.inj hn).symm⟩⟩
  | cons c s =>
    dsimp only at h
    by_cases hc : c = mark
    · rw [if_pos hc] at h
      obtain ⟨h1, h2, h3⟩ := tw_parts Base10.isDigit s
      generalize s.takeWhile Base10.isDigit = ds at h h1 h2 h3
      cases ds with
      | nil => cases h
      | cons x l =>
        dsimp only at h
        split at h
        · rename_i hx
          obtain ⟨rfl, rfl⟩ := Prod.mk.inj (Option.some.inj h)
          rw [Bool.and_eq_true] at hx
          have hx0 : x ≠ 48 := by rintro rfl; exact absurd hx.1 (by decide)
          have hf := value_inj (x :: l).length (x :: l) (Nat.le_refl _) (by simp) h2 (by intro _ hh; exact hx0 (Option.some.inj hh))
          unfold toInteger at hn
          rw [if_neg (by simp), ← hf] at hn
          have hn := (hread _).symm.trans hn
          split at hn
          · rename_i hlt
            obtain rfl := Option.some.inj hn
            refine ⟨mark :: (x :: l), ?_, .inr ⟨?_, hlt, by rw [hf]⟩⟩
            · rw [hc, List.cons_append, ← h1]
            · rcases Nat.eq_zero_or_pos (Base10.digitsVal (x :: l)) with h0 | h0
              · rw [h0] at hf
                have : (x :: l) = [48] := by rw [← hf]; decide +kernel
                exact absurd (List.cons.inj this).1 hx0
              · exact h0
          · cases hn
        · cases h
    · rw [if_neg hc] at h
      obtain ⟨rfl, rfl⟩ := Prod.mk.inj (Option.some.inj h)
      exact ⟨[], rfl, .inl ⟨rfl, (Option.some.inj hn).symm⟩⟩

/-! ### Hosts -/

theorem v6_iff (c : UInt8) : isV6 c = true ↔ c ∈ ascii "0123456789abcdef:" := by
  have : ∀ c : UInt8, isV6 c = true ↔ c ∈ ascii "0123456789abcdef:" := by apply Der.byte_forall; decide +kernel
  exact this c
theorem name_iff (c : UInt8) : isName c = true ↔ c ∉ ascii ":?/\\" := by
  have : ∀ c : UInt8, isName c = true ↔ c ∉ ascii ":?/\\" := by apply Der.byte_forall; decide +kernel
  exact this c
theorem v4_iff (c : UInt8) : isV4 c = true ↔ c ∈ ascii "0123456789." := by
  have : ∀ c : UInt8, isV4 c = true ↔ c ∈ ascii "0123456789." := by apply Der.byte_forall; decide +kernel
  exact this c

theorem brk : ascii "[" = [91] ∧ ascii "]" = [93] ∧ ascii ":" = [58] ∧ ascii "/" = [47] := by decide

theorem bracketed_fwd {h : Bytes} (hh : Bracketed h) (r : Bytes) : bracketed (h ++ r) = some (h, r) := by
  obtain ⟨b, hb, hc, rfl⟩ := hh
  rw [brk.1, brk.2.1]
  unfold bracketed
  have e : [91] ++ b ++ [93] ++ r = 91 :: (b ++ 93 :: r) := by simp
  obtain ⟨h1, h2⟩ := tw_split (p := isV6) (t := b) (r := 93 :: r) (fun c hm => (v6_iff c).2 (hc c hm)) (by
    intro c hm; obtain rfl := Option.some.inj hm; decide)
  rw [e]
  simp only [List.head?_cons, if_true, List.drop_one, List.tail_cons]
  rw [h1, h2]
  simp [hb, brk.1, brk.2.1]

theorem bracketed_bwd {s h r : Bytes} (hs : bracketed s = some (h, r)) : s = h ++ r ∧ Bracketed h := by
  unfold bracketed at hs
  split at hs
  · rename_i h0
    dsimp only at hs
    obtain ⟨h1, h2, h3⟩ := tw_parts isV6 (s.drop 1)
    split at hs
    · rename_i hb
      obtain ⟨rfl, rfl⟩ := Prod.mk.inj (Option.some.inj hs)
      refine ⟨?_, _, hb.1, fun c hc => (v6_iff c).1 (h2 c hc), rfl⟩
      cases s with
      | nil => cases h0
      | cons x s =>
        obtain rfl := Option.some.inj h0
        simp only [List.drop_one, List.tail_cons] at h1 hb ⊢
        cases hr : s.drop (s.takeWhile isV6).length with
        | nil => rw [hr] at hb; exact absurd hb.2 (by simp)
        | cons y l =>
          rw [hr] at hb h1
          obtain rfl := Option.some.inj hb.2
          rw [brk.1, brk.2.1]
          conv => lhs; rw [h1]
          simp
    · cases hs
  · cases hs

/-- The host of an endpoint. -/
def Host (t : Bytes) : Prop := Bracketed t ∨ Name t

theorem num_head {limit n : Nat} {t : Bytes} (h : NumText 58 limit t n) : ∀ c, t.head? = some c → isName c = false := by
  intro c hc
  rcases h with ⟨rfl, -⟩ | ⟨-, -, rfl⟩
  · cases hc
  · obtain rfl := Option.some.inj hc; decide

theorem hostPort_fwd {h t : Bytes} {n : Nat} (hn : NumText 58 (2 ^ 16) t n) :
    ∃ d, hostPort (h, t) = some (h, d) ∧ toInteger (deserialize (2 ^ 16)) d = some n := by
  obtain ⟨d, h1, h2⟩ := opt_fwd (more := 4) (r := []) reads16 (by decide) hn (by simp)
  rw [List.append_nil] at h1
  exact ⟨d, by unfold hostPort; dsimp only; rw [h1]; rfl, h2⟩

theorem hostPort_bwd {h : Bytes × Bytes} {r : Bytes × Bytes} {n : Nat} (hp : hostPort h = some r) (hn : toInteger (deserialize (2 ^ 16)) r.2 = some n) :
    r.1 = h.1 ∧ NumText 58 (2 ^ 16) h.2 n := by
  unfold hostPort at hp
  obtain ⟨⟨d, r'⟩, h1, h2⟩ := Option.bind_eq_some_iff.1 hp
  dsimp only at h2
  split at h2
  · rename_i h0
    obtain rfl := Option.some.inj h2
    subst h0
    obtain ⟨t, h3, h4⟩ := opt_bwd reads16 h1 hn
    rw [List.append_nil] at h3
    rw [h3]
    exact ⟨rfl, h4⟩
  · cases h2

theorem named_fwd {h t : Bytes} (hh : Name h) (ht : ∀ c, t.head? = some c → isName c = false) : named (h ++ t) = some (h, t) := by
  unfold named
  obtain ⟨h1, h2⟩ := tw_split (p := isName) (fun c hc => (name_iff c).2 (hh.2 c hc)) ht
  dsimp only
  rw [h1, h2, if_neg hh.1]

theorem named_bwd {s : Bytes} {r : Bytes × Bytes} (h : named s = some r) : s = r.1 ++ r.2 ∧ Name r.1 := by
  unfold named at h
  dsimp only at h
  obtain ⟨h1, h2, h3⟩ := tw_parts isName s
  split at h
  · cases h
  · rename_i h0
    obtain rfl := Option.some.inj h
    exact ⟨h1, h0, fun c hc => (name_iff c).1 (h2 c hc)⟩

theorem hostPort_head {a b : Bytes} {r : Bytes × Bytes} (h : hostPort (a, b) = some r) : ∀ c, b.head? = some c → c = 58 := by
  intro c hc
  unfold hostPort optNumber at h
  cases b with
  | nil => cases hc
  | cons x b =>
    obtain rfl := Option.some.inj hc
    by_cases hx : x = 58
    · exact hx
    · dsimp only at h
      rw [if_neg hx] at h
      simp at h

/-- A text that is a bracketed text and a port as well as a name and a port is so in one way: no number follows the colon of a bracketed text. -/
theorem overlap {host t a b : Bytes} {n limit : Nat} (hh : Name host) (ht : NumText 58 limit t n) (he : host ++ t = a ++ b) (ha : Bracketed a)
    (hb : ∀ c, b.head? = some c → c = 58) : a = host ∧ b = t := by
  obtain ⟨body, -, hbody, hab⟩ := ha
  by_cases hc : 58 ∈ a
  · exfalso
    have hcolon : ∀ c ∈ host, c ≠ 58 := by
      rintro c hm rfl
      exact hh.2 58 hm (by decide)
    rcases List.append_eq_append_iff.1 he with ⟨x, h1, h2⟩ | ⟨x, h1, h2⟩
    · have h93 : (93 : UInt8) ∈ x := by
        rw [h1] at hab hc
        rcases List.mem_append.1 hc with h | h
        · exact absurd rfl (hcolon 58 h)
        · have hx : x ≠ [] := by rintro rfl; simp at h
          have hl := congrArg List.getLast? hab
          rw [List.getLast?_append, brk.2.1, List.getLast?_append] at hl
          cases hg : x.getLast? with
          | none => exact absurd (List.getLast?_eq_none_iff.1 hg) hx
          | some y =>
            rw [hg] at hl
            have : y = 93 := by simpa using hl
            subst this
            exact List.mem_of_getLast? hg
      rcases ht with ⟨rfl, -⟩ | ⟨-, -, rfl⟩
      · rcases x with _ | ⟨y, x⟩
        · simp at h93
        · cases h2
      · have hm : (93 : UInt8) ∈ 58 :: Base10.formatDec n := by rw [h2]; simp [h93]
        rcases List.mem_cons.1 hm with h | h
        · revert h; decide
        · have := digit_dec n 93 h; revert this; decide
    · exact hcolon 58 (by rw [h1]; simp [hc]) rfl
  · have hna : Name a := by
      refine ⟨by rw [hab, brk.1]; simp, ?_⟩
      intro c hm
      rw [hab] at hm hc
      rcases List.mem_append.1 hm with hm | hm
      · rcases List.mem_append.1 hm with hm | hm
        · rw [brk.1, List.mem_singleton] at hm; subst hm; decide
        · have h1 := hbody c hm
          have h2 : c ≠ 58 := by rintro rfl; exact hc (by simp [hm])
          have : ∀ c : UInt8, c ∈ ascii "0123456789abcdef:" → c ≠ 58 → c ∉ ascii ":?/\\" := by apply Der.byte_forall; decide +kernel
          exact this c h1 h2
      · rw [brk.2.1, List.mem_singleton] at hm; subst hm; decide
    have e1 := named_fwd hh (num_head ht)
    have e2 := named_fwd hna (t := b) (by intro c hc; rw [hb c hc]; decide)
    rw [he, e2] at e1
    exact ⟨(Prod.mk.inj (Option.some.inj e1)).1, (Prod.mk.inj (Option.some.inj e1)).2⟩

theorem parse_iff (s : Bytes) (e : Endpoint) : parseEndpoint s = some e ↔ ∃ t, s = e.host ++ t ∧ Host e.host ∧ NumText 58 (2 ^ 16) t e.port := by
  constructor
  · intro h
    unfold parseEndpoint at h
    obtain ⟨r, h1, h2⟩ := Option.bind_eq_some_iff.1 h
    obtain ⟨n, h3, h4⟩ := Option.map_eq_some_iff.1 h2
    subst h4
    dsimp only
    unfold matchEndpoint at h1
    split at h1
    · rename_i r' hr
      obtain rfl := Option.some.inj h1
      obtain ⟨⟨a, b⟩, g1, g2⟩ := Option.bind_eq_some_iff.1 hr
      obtain ⟨g3, g4⟩ := hostPort_bwd g2 h3
      obtain ⟨g5, g6⟩ := bracketed_bwd g1
      rw [g3]
      exact ⟨b, g5, .inl g6, g4⟩
    · obtain ⟨a, g1, g2⟩ := Option.bind_eq_some_iff.1 h1
      obtain ⟨g3, g4⟩ := hostPort_bwd g2 h3
      obtain ⟨g5, g6⟩ := named_bwd g1
      rw [g3]
      exact ⟨a.2, g5, .inr g6, g4⟩
  · rintro ⟨t, h1, h2, h3⟩
    obtain ⟨host, port⟩ := e
    dsimp only at h1 h2 h3
    subst h1
    obtain ⟨d, g1, g2⟩ := hostPort_fwd (h := host) h3
    unfold parseEndpoint
    rcases h2 with h2 | h2
    · have : matchEndpoint (host ++ t) = some (host, d) := by
        unfold matchEndpoint
        rw [bracketed_fwd h2, Option.bind_some, g1]
      rw [this, Option.bind_some, g2]; rfl
    · have hnm := named_fwd h2 (num_head h3)
      have : matchEndpoint (host ++ t) = some (host, d) := by
        unfold matchEndpoint
        cases hb : (bracketed (host ++ t)).bind hostPort with
        | none => dsimp only; rw [hnm, Option.bind_some, g1]
        | some r =>
          dsimp only
          -- both ways give the same parts
          obtain ⟨⟨a, b⟩, k1, k2⟩ := Option.bind_eq_some_iff.1 hb
          obtain ⟨k3, k4⟩ := bracketed_bwd k1
          obtain ⟨rfl, rfl⟩ := overlap h2 h3 k3 k4 (hostPort_head k2)
          rw [g1] at k2
          exact k2.symm
      rw [this, Option.bind_some, g2]; rfl

/-- A stream with a word. -/
theorem word_of {s w : Bytes} (hs : Framed s w) (hne : w ≠ []) (hw : ∀ c ∈ w, isWs c = false) : word s = w := word_framed hs hne hw

/-! ### Endpoints -/

/-- A word is read as an endpoint exactly if it is the host, a name or a bracketed text, and the port: nothing for zero or a colon and the number. -/
theorem C86_endpoint (w s : Bytes) (hs : Framed s w) (hne : w ≠ []) (hw : ∀ c ∈ w, isWs c = false) (e : Endpoint) :
    Endpoint.read s = some e ↔ ∃ t, w = e.host ++ t ∧ (Bracketed e.host ∨ Name e.host) ∧ NumText 58 (2 ^ 16) t e.port := by
  unfold Endpoint.read
  rw [word_of hs hne hw]
  exact parse_iff w e

theorem numText_opt (mark : UInt8) {limit n : Nat} (h : n < limit) : NumText mark limit (if n = 0 then [] else mark :: serialize n) n := by
  by_cases h0 : n = 0
  · rw [if_pos h0]; exact .inl ⟨rfl, h0⟩
  · rw [if_neg h0]; exact .inr ⟨by omega, h, rfl⟩

theorem opt_noWs {mark : UInt8} (hm : isWs mark = false) (n : Nat) : ∀ c ∈ (if n = 0 then [] else mark :: serialize n), isWs c = false := by
  intro c hc
  split at hc
  · simp at hc
  · rcases List.mem_cons.1 hc with rfl | hc
    · exact hm
    · exact Config.dec_noWs n c hc

theorem append_noWs {a b : Bytes} (ha : ∀ c ∈ a, isWs c = false) (hb : ∀ c ∈ b, isWs c = false) : ∀ c ∈ a ++ b, isWs c = false := by
  intro c hc
  rcases List.mem_append.1 hc with h | h
  · exact ha c h
  · exact hb c h

theorem host_ne {h : Bytes} (hh : Bracketed h ∨ Name h) : h ≠ [] := by
  rcases hh with ⟨b, -, -, rfl⟩ | hh
  · rw [brk.1]; simp
  · exact hh.1

/-- An endpoint is read back from its text. With a default port the text is that of the endpoint with this port, if it has none. -/
theorem C86_endpoint_roundtrip (e : Endpoint) (hh : Bracketed e.host ∨ Name e.host) (hw : ∀ c ∈ e.host, isWs c = false) (hp : e.port < 2 ^ 16)
    (default : Nat) (hd : default < 2 ^ 16) (s : Bytes) :
    (Framed s e.write → Endpoint.read s = some e) ∧
    (Framed s (e.text default) → Endpoint.read s = some ⟨e.host, if e.port = 0 then default else e.port⟩) := by
  have key : ∀ d, d < 2 ^ 16 → Framed s (e.text d) → Endpoint.read s = some ⟨e.host, if e.port = 0 then d else e.port⟩ := by
    intro d hd hs
    have he : e.text d = e.host ++ (if (if e.port = 0 then d else e.port) = 0 then [] else 58 :: serialize (if e.port = 0 then d else e.port)) := by
      unfold Endpoint.text
      dsimp only
      generalize (if e.port = 0 then d else e.port) = v
      by_cases h : v = 0
      · rw [if_pos h, if_pos h, List.append_nil]
      · rw [if_neg h, if_neg h, brk.2.2.1]; simp
    rw [he] at hs
    refine (C86_endpoint _ s hs ?_ (append_noWs hw (opt_noWs (by decide) _)) _).2 ⟨_, rfl, hh, numText_opt 58 (by split <;> assumption)⟩
    intro h
    exact host_ne hh (List.append_eq_nil_iff.1 h).1
  refine ⟨fun hs => ?_, key default hd⟩
  have := key 0 (by decide) hs
  rw [this]
  obtain ⟨host, port⟩ := e
  dsimp only
  split
  · rename_i h; rw [h]
  · rfl

/-! ### URLs -/

/-- The part of the text before the host. -/
def schemeText (k : Bytes) : Bytes := if k = [] then [] else k ++ ascii "://"

theorem schemes_name : ∀ k ∈ schemes, Name k := by
  have : ∀ k ∈ schemes, k ≠ [] ∧ ∀ c ∈ k, c ∉ ascii ":?/\\" := by decide +kernel
  exact this

theorem sep : ascii "://" = [58, 47, 47] := by decide

theorem scheme_unique {k k' r r' : Bytes} (hk : Name k) (hk' : Name k') (h : k ++ 58 :: r = k' ++ 58 :: r') : k = k' ∧ r = r' := by
  have e1 := named_fwd hk (t := 58 :: r) (by intro c hc; obtain rfl := Option.some.inj hc; decide)
  have e2 := named_fwd hk' (t := 58 :: r') (by intro c hc; obtain rfl := Option.some.inj hc; decide)
  rw [h, e2] at e1
  obtain ⟨h1, h2⟩ := Prod.mk.inj (Option.some.inj e1)
  exact ⟨h1.symm, ((List.cons.inj h2).2).symm⟩

theorem optScheme_some {k : Bytes} (hk : k ∈ schemes) (r : Bytes) : optScheme (k ++ ascii "://" ++ r) = (k, r) := by
  unfold optScheme
  cases hf : schemes.find? fun k' => (k' ++ ascii "://").isPrefixOf (k ++ ascii "://" ++ r) with
  | none =>
    have := List.find?_eq_none.1 hf k hk
    exact absurd (List.isPrefixOf_iff_prefix.2 (List.prefix_append _ _)) this
  | some k' =>
    have h1 := List.find?_some hf
    have h2 := List.mem_of_find?_eq_some hf
    obtain ⟨x, hx⟩ := List.isPrefixOf_iff_prefix.1 h1
    rw [sep] at hx
    have := scheme_unique (schemes_name k' h2) (schemes_name k hk) (r := 47 :: 47 :: x) (r' := 47 :: 47 :: r) (by simpa using hx)
    obtain ⟨rfl, -⟩ := this
    dsimp only
    rw [show k'.length + 3 = (k' ++ ascii "://").length from by rw [sep]; simp, List.drop_left]

theorem optScheme_bwd (s : Bytes) : s = schemeText (optScheme s).1 ++ (optScheme s).2 ∧ ((optScheme s).1 = [] ∨ (optScheme s).1 ∈ schemes) := by
  unfold optScheme
  cases hf : schemes.find? fun k => (k ++ ascii "://").isPrefixOf s with
  | none => simp [schemeText]
  | some k =>
    have h1 := List.find?_some hf
    have h2 := List.mem_of_find?_eq_some hf
    obtain ⟨x, hx⟩ := List.isPrefixOf_iff_prefix.1 h1
    refine ⟨?_, .inr h2⟩
    dsimp only
    unfold schemeText
    rw [if_neg (schemes_name k h2).1, show k.length + 3 = (k ++ ascii "://").length from by rw [sep]; simp, ← hx, List.drop_left]

theorem optScheme_none {h t : Bytes} {n limit : Nat} (hh : Bracketed h ∨ Name h) (ht : NumText 58 limit t n) : optScheme (h ++ t) = ([], h ++ t) := by
  unfold optScheme
  cases hf : schemes.find? fun k => (k ++ ascii "://").isPrefixOf (h ++ t) with
  | none => rfl
  | some k =>
    exfalso
    have h1 := List.find?_some hf
    have h2 := List.mem_of_find?_eq_some hf
    obtain ⟨x, hx⟩ := List.isPrefixOf_iff_prefix.1 h1
    rw [sep] at hx
    rcases hh with ⟨b, -, -, rfl⟩ | hh
    · have : ∀ k ∈ schemes, k.head? ≠ some 91 ∧ k ≠ [] := by decide +kernel
      obtain ⟨h3, h4⟩ := this k h2
      rw [brk.1] at hx
      have := congrArg List.head? hx
      cases k with
      | nil => exact h4 rfl
      | cons c k => exact h3 (by simpa using this)
    · have e1 := named_fwd hh (num_head ht)
      have e2 := named_fwd (schemes_name k h2) (t := 58 :: 47 :: 47 :: x) (by intro c hc; obtain rfl := Option.some.inj hc; decide)
      rw [← hx] at e1
      have e3 : k ++ [58, 47, 47] ++ x = k ++ 58 :: 47 :: 47 :: x := by simp
      rw [e3, e2] at e1
      have := (Prod.mk.inj (Option.some.inj e1)).2
      rcases ht with ⟨rfl, -⟩ | ⟨-, -, rfl⟩
      · cases this
      · have hm : (47 : UInt8) ∈ Base10.formatDec n := by rw [← (List.cons.inj this).2]; simp
        have := digit_dec n 47 hm
        revert this; decide

/-- A word is read as an URL exactly if it is one of the schemes and `://`, or nothing, and an endpoint. -/
theorem C86_url (w s : Bytes) (hs : Framed s w) (hne : w ≠ []) (hw : ∀ c ∈ w, isWs c = false) (u : Url) :
    Url.read s = some u ↔ ∃ t, w = (if u.scheme = [] then [] else u.scheme ++ ascii "://") ++ u.host ++ t ∧
      (u.scheme = [] ∨ u.scheme ∈ [ascii "tcp", ascii "udp", ascii "http", ascii "https", ascii "inproc"]) ∧
      (Bracketed u.host ∨ Name u.host) ∧ NumText 58 (2 ^ 16) t u.port := by
  unfold Url.read
  rw [word_of hs hne hw]
  unfold parseUrl
  constructor
  · intro h
    obtain ⟨e, h1, rfl⟩ := Option.map_eq_some_iff.1 h
    obtain ⟨t, h2, h3, h4⟩ := (parse_iff _ _).1 h1
    obtain ⟨h5, h6⟩ := optScheme_bwd w
    exact ⟨t, by conv => { lhs; rw [h5, h2] }; exact (List.append_assoc _ _ _).symm, h6, h3, h4⟩
  · rintro ⟨t, h1, h2, h3, h4⟩
    obtain ⟨scheme, host, port⟩ := u
    dsimp only at h1 h2 h3 h4
    have he : optScheme w = (scheme, host ++ t) := by
      by_cases hk : scheme = []
      · subst hk
        rw [if_pos rfl] at h1
        rw [h1]
        exact optScheme_none h3 h4
      · rw [if_neg hk] at h1
        rw [h1, List.append_assoc]
        exact optScheme_some (h2.resolve_left hk) _
    rw [he]
    dsimp only
    rw [(parse_iff (host ++ t) ⟨host, port⟩).2 ⟨t, rfl, h3, h4⟩]
    rfl

/-- An URL is read back from its text. -/
theorem C86_url_roundtrip (u : Url) (hk : u.scheme = [] ∨ u.scheme ∈ [ascii "tcp", ascii "udp", ascii "http", ascii "https", ascii "inproc"])
    (hh : Bracketed u.host ∨ Name u.host) (hw : ∀ c ∈ u.host, isWs c = false) (hp : u.port < 2 ^ 16) (s : Bytes) (hs : Framed s u.write) : Url.read s = some u := by
  have he : u.write = (if u.scheme = [] then [] else u.scheme ++ ascii "://") ++ u.host ++ (if u.port = 0 then [] else 58 :: serialize u.port) := by
    unfold Url.write
    rw [brk.2.2.1]
    rfl
  rw [he] at hs
  refine (C86_url _ s hs ?_ (append_noWs (append_noWs ?_ hw) (opt_noWs (by decide) _)) _).2 ⟨_, rfl, hk, hh, numText_opt 58 hp⟩
  · intro h
    exact host_ne hh (List.append_eq_nil_iff.1 (List.append_eq_nil_iff.1 h).1).2
  · rcases hk with hk | hk
    · rw [if_pos hk]; simp
    · split
      · simp
      · have : ∀ k ∈ schemes, ∀ c ∈ k ++ ascii "://", isWs c = false := by decide +kernel
        exact this _ hk

/-! ### Authorities -/

theorem literal_fwd {h r : Bytes} (hh : Bracketed h ∨ Dotted h) (hr : ∀ c, r.head? = some c → isV4 c = false) : literal (h ++ r) = some (h, r) := by
  unfold literal
  rcases hh with hh | hh
  · rw [bracketed_fwd hh]
  · have hb : bracketed (h ++ r) = none := by
      unfold bracketed
      obtain ⟨x, l, rfl⟩ := List.exists_cons_of_ne_nil hh.1
      rw [if_neg]
      intro h0
      obtain rfl := Option.some.inj h0
      exact absurd (hh.2 91 (by simp)) (by decide)
    obtain ⟨h1, h2⟩ := tw_split (p := isV4) (fun c hc => (v4_iff c).2 (hh.2 c hc)) hr
    rw [hb]
    dsimp only
    rw [h1, h2, if_neg hh.1]

theorem literal_bwd {s : Bytes} {r : Bytes × Bytes} (h : literal s = some r) : s = r.1 ++ r.2 ∧ (Bracketed r.1 ∨ Dotted r.1) := by
  unfold literal at h
  split at h
  · rename_i r' hb
    obtain rfl := Option.some.inj h
    obtain ⟨h1, h2⟩ := bracketed_bwd hb
    exact ⟨h1, .inl h2⟩
  · dsimp only at h
    obtain ⟨h1, h2, h3⟩ := tw_parts isV4 s
    split at h
    · cases h
    · rename_i h0
      obtain rfl := Option.some.inj h
      exact ⟨h1, .inr ⟨h0, fun c hc => (v4_iff c).1 (h2 c hc)⟩⟩

theorem unbracket_of {b : Bytes} (hne : b ≠ []) (hb : ∀ c ∈ b, c ≠ 91 ∧ c ≠ 93) : unbracket b = b ∧ unbracket (ascii "[" ++ b ++ ascii "]") = b := by
  have hp : ∀ c ∈ b, (c == 91 || c == 93) = false := by intro c hc; simp [hb c hc]
  have hdrop : ∀ (l : Bytes), l ≠ [] → (∀ c ∈ l, (c == 91 || c == 93) = false) → ∀ m : Bytes, (l ++ m).dropWhile (fun c => c == 91 || c == 93) = l ++ m := by
    intro l hl hc m
    obtain ⟨x, l, rfl⟩ := List.exists_cons_of_ne_nil hl
    rw [List.cons_append, List.dropWhile_cons, hc x (by simp)]; rfl
  have hrev : b.reverse ≠ [] := by simpa using hne
  have hprev : ∀ c ∈ b.reverse, (c == 91 || c == 93) = false := fun c hc => hp c (by simpa using hc)
  constructor
  · unfold unbracket
    dsimp only
    have h1 := hdrop b hne hp []
    have h2 := hdrop b.reverse hrev hprev []
    rw [List.append_nil] at h1 h2
    rw [h1, h2, List.reverse_reverse]
  · unfold unbracket
    dsimp only
    rw [brk.1, brk.2.1]
    have e : [91] ++ b ++ [93] = 91 :: (b ++ [93]) := by simp
    have h2 := hdrop b.reverse hrev hprev []
    rw [List.append_nil] at h2
    rw [e, List.dropWhile_cons, if_pos (by decide), hdrop b hne hp, List.reverse_append, List.reverse_singleton, List.singleton_append,
      List.dropWhile_cons, if_pos (by decide), h2, List.reverse_reverse]

theorem make_iff (A : Asio) {h : Bytes} (hh : Bracketed h ∨ Dotted h) (ip : Address) : makeAddress A h = some ip ↔ Names A h ip := by
  have hv6 : ∀ c : UInt8, c ∈ ascii "0123456789abcdef:" → c ≠ 91 ∧ c ≠ 93 := by apply Der.byte_forall; decide +kernel
  have hv4 : ∀ c : UInt8, c ∈ ascii "0123456789." → c ≠ 91 ∧ c ≠ 93 := by apply Der.byte_forall; decide +kernel
  unfold makeAddress Names
  constructor
  · intro hm
    rcases hh with ⟨b, hb, hc, rfl⟩ | hh
    · rw [(unbracket_of hb fun c h => hv6 c (hc c h)).2] at hm
      exact .inr ⟨b, hb, hc, rfl, hm⟩
    · rw [(unbracket_of hh.1 fun c h => hv4 c (hh.2 c h)).1] at hm
      exact .inl ⟨hh, hm⟩
  · rintro (⟨h1, h2⟩ | ⟨b, hb, hc, rfl, hm⟩)
    · rw [(unbracket_of h1.1 fun c h => hv4 c (h1.2 c h)).1]; exact h2
    · rw [(unbracket_of hb fun c h => hv6 c (hc c h)).2]; exact hm

theorem names_host {A : Asio} {h : Bytes} {ip : Address} (hn : Names A h ip) : Bracketed h ∨ Dotted h := by
  rcases hn with ⟨h1, -⟩ | ⟨b, hb, hc, rfl, -⟩
  · exact .inr h1
  · exact .inl ⟨b, hb, hc, rfl⟩

/-- A word is read as an authority exactly if it is the text of an address, with brackets if it has colons, the port and the prefix: nothing for zero or a
colon or slash and the number; and the prefix is not longer than the address. -/
theorem C86_authority (A : Asio) (w s : Bytes) (hs : Framed s w) (hne : w ≠ []) (hw : ∀ c ∈ w, isWs c = false) (a : Authority) :
    Authority.read A s = some a ↔ ∃ h p c, w = h ++ p ++ c ∧ Names A h a.ip ∧ NumText 58 (2 ^ 16) p a.port ∧ NumText 47 (2 ^ 8) c a.cidr ∧
      a.cidr ≤ (match a.ip with | .v4 _ => 32 | .v6 _ => 128) := by
  unfold Authority.read
  rw [word_of hs hne hw]
  unfold parseAuthority
  constructor
  · intro h
    obtain ⟨⟨h0, r0⟩, h1, h⟩ := Option.bind_eq_some_iff.1 h
    obtain ⟨⟨d1, r1⟩, h2, h⟩ := Option.bind_eq_some_iff.1 h
    obtain ⟨⟨d2, r2⟩, h3, h⟩ := Option.bind_eq_some_iff.1 h
    dsimp only at h2 h3 h
    split at h
    · rename_i hr
      subst hr
      unfold authorityOf at h
      cases hm : makeAddress A h0 with
      | none => rw [hm] at h; cases h
      | some ip =>
        cases hp : toInteger (deserialize (2 ^ 16)) d1 with
        | none => rw [hm, hp] at h; cases h
        | some p =>
          cases hc : toInteger deserialize8 d2 with
          | none => rw [hm, hp, hc] at h; cases h
          | some c =>
            rw [hm, hp, hc] at h
            dsimp only at h
            split at h
            · rename_i hle
              obtain rfl := Option.some.inj h
              obtain ⟨k1, k2⟩ := literal_bwd h1
              obtain ⟨p', k3, k4⟩ := opt_bwd reads16 h2 hp
              obtain ⟨c', k5, k6⟩ := opt_bwd reads8 h3 hc
              rw [List.append_nil] at k5
              subst k5
              dsimp only at k1 k2 k3
              rw [k3] at k1
              refine ⟨h0, p', r1, by rw [k1, List.append_assoc], (make_iff A k2 ip).1 hm, k4, k6, ?_⟩
              dsimp only
              unfold maxPrefix at hle
              cases ip <;> exact hle
            · cases h
    · cases h
  · rintro ⟨h, p, c, rfl, h1, h2, h3, h4⟩
    have hc : ∀ x, c.head? = some x → x = 47 := by
      intro x hx
      rcases h3 with ⟨rfl, -⟩ | ⟨-, -, rfl⟩
      · cases hx
      · exact (Option.some.inj hx).symm
    have hpc : ∀ x, (p ++ c).head? = some x → isV4 x = false := by
      intro x hx
      rcases h2 with ⟨rfl, -⟩ | ⟨-, -, rfl⟩
      · rw [List.nil_append] at hx; rw [hc x hx]; decide
      · obtain rfl := Option.some.inj hx; decide
    obtain ⟨d1, k1, k2⟩ := opt_fwd (more := 4) reads16 (by decide) h2 (r := c) (by intro x hx; rw [hc x hx]; decide)
    obtain ⟨d2, k3, k4⟩ := opt_fwd (more := 2) reads8 (by decide) h3 (r := []) (by simp)
    rw [List.append_nil] at k3
    rw [List.append_assoc, literal_fwd (names_host h1) hpc, Option.bind_some, k1, Option.bind_some, k3, Option.bind_some, if_pos rfl]
    unfold authorityOf
    rw [(make_iff A (names_host h1) _).2 h1, k2, k4]
    dsimp only
    rw [if_pos]
    unfold maxPrefix
    cases hip : a.ip <;> rw [hip] at h4 <;> exact h4

theorem hex_ws : ∀ c : UInt8, c ∈ ascii "0123456789abcdef:" → isWs c = false := by apply Der.byte_forall; decide +kernel
theorem dot_ws : ∀ c : UInt8, c ∈ ascii "0123456789." → isWs c = false ∧ c ≠ 58 := by apply Der.byte_forall; decide +kernel

theorem text_names {A : Asio} (hA : Lawful A) (ip : Address) (hplain : ∀ n, denormalize ip = .v6 n → Plain A n) :
    Names A (toLiteral A ip) (denormalize ip) ∧ (∀ c ∈ toLiteral A ip, isWs c = false) := by
  unfold toLiteral toHost
  dsimp only
  cases hd : denormalize ip with
  | v4 n =>
    dsimp only
    have h1 := hA.dotted n
    rw [if_neg (by
      rw [List.contains_iff_mem]
      intro h; exact (dot_ws 58 (h1.2 58 h)).2 rfl)]
    exact ⟨.inl ⟨h1, hA.make4 n⟩, fun c hc => (dot_ws c (h1.2 c hc)).1⟩
  | v6 n =>
    dsimp only
    have h1 := hplain n hd
    rw [if_pos (by rw [List.contains_iff_mem]; exact hA.colon n)]
    refine ⟨.inr ⟨_, by intro h; have := hA.colon n; rw [h] at this; simp at this, h1, rfl, hA.make6 n⟩, append_noWs (append_noWs (by decide) fun c hc => hex_ws c (h1 c hc)) (by decide)⟩

/-- An authority, made of an address, a port and a prefix that is not too long, is read back from its text, if the text of an IPv6 address has no points. -/
theorem C86_authority_roundtrip (A : Asio) (hA : Lawful A) (ip : Address) (port cidr : Nat) (hp : port < 2 ^ 16)
    (hc : cidr ≤ (match denormalize ip with | .v4 _ => 32 | .v6 _ => 128)) (hplain : ∀ n, denormalize ip = .v6 n → Plain A n)
    (s : Bytes) (hs : Framed s ((Authority.make ip port cidr).write A)) : Authority.read A s = some (Authority.make ip port cidr) := by
  have hdd : denormalize (denormalize ip) = denormalize ip := by
    cases ip with
    | v4 n => rfl
    | v6 n =>
      by_cases h : isMapped n = true
      · simp [denormalize, h]
      · simp [denormalize, h]
  obtain ⟨h1, h2⟩ := text_names hA (denormalize ip) (by rw [hdd]; exact hplain)
  rw [hdd] at h1
  have he : (Authority.make ip port cidr).write A =
      toLiteral A (denormalize ip) ++ (if port = 0 then [] else 58 :: serialize port) ++ (if cidr = 0 then [] else 47 :: serialize cidr) := by
    unfold Authority.write Authority.make optText
    rw [brk.2.2.1, brk.2.2.2]
    dsimp only
    by_cases hp0 : port = 0 <;> by_cases hc0 : cidr = 0 <;> simp [hp0, hc0]
  rw [he] at hs
  have hc' : cidr ≤ 128 := by revert hc; cases denormalize ip <;> intro hc <;> dsimp only at hc <;> omega
  refine (C86_authority A _ s hs ?_ (append_noWs (append_noWs h2 (opt_noWs (by decide) _)) (opt_noWs (by decide) _)) _).2
    ⟨_, _, _, rfl, h1, numText_opt 58 hp, numText_opt 47 (show cidr < 2 ^ 8 by omega), hc⟩
  intro h
  have := (List.append_eq_nil_iff.1 (List.append_eq_nil_iff.1 h).1).1
  rw [this] at h1
  rcases h1 with ⟨h1, -⟩ | ⟨b, -, -, h1, -⟩
  · exact h1.1 rfl
  · rw [brk.1] at h1; cases h1

/-- The endpoint of an authority is read back from its text. -/
theorem C86_authority_endpoint (A : Asio) (hA : Lawful A) (a : Authority) (hp : a.port < 2 ^ 16) (hplain : ∀ n, denormalize a.ip = .v6 n → Plain A n)
    (s : Bytes) (hs : Framed s (Endpoint.ofAuthority A a).write) : Endpoint.read s = some (Endpoint.ofAuthority A a) := by
  obtain ⟨h1, h2⟩ := text_names hA a.ip hplain
  refine (C86_endpoint_roundtrip (Endpoint.ofAuthority A a) ?_ h2 hp 0 (by decide) s).1 hs
  rcases names_host h1 with h | h
  · exact .inl h
  · refine .inr ⟨h.1, fun c hc => ?_⟩
    have : ∀ c : UInt8, c ∈ ascii "0123456789." → c ∉ ascii ":?/\\" := by apply Der.byte_forall; decide +kernel
    exact this c (h.2 c hc)

/-- The URL of an IPv6 authority is never read back from its text: it is written without brackets. -/
theorem C86_url_counterexample (A : Asio) (hA : Lawful A) (a : Authority) (n : BitVec 128) (hn : denormalize a.ip = .v6 n) (hplain : Plain A n) :
    Url.read (Url.ofAuthority A a).write ≠ some (Url.ofAuthority A a) := by
  have hw : (Url.ofAuthority A a).write = A.text6 n ++ (if a.port = 0 then [] else 58 :: serialize a.port) := by
    unfold Url.write Url.ofAuthority toHost
    rw [hn, brk.2.2.1]
    rfl
  have hne : A.text6 n ≠ [] := by intro h; have := hA.colon n; rw [h] at this; simp at this
  rw [hw]
  intro h
  obtain ⟨t, -, -, h3, -⟩ := (C86_url _ _ (.self _) (by intro h; exact hne (List.append_eq_nil_iff.1 h).1)
    (append_noWs (fun c hc => hex_ws c (hplain c hc)) (opt_noWs (by decide) _)) _).1 h
  have hh : (Url.ofAuthority A a).host = A.text6 n := by unfold Url.ofAuthority toHost; rw [hn]
  rw [hh] at h3
  rcases h3 with ⟨b, -, -, hb⟩ | h3
  · have := hplain 91 (by rw [hb, brk.1]; simp)
    revert this; decide
  · exact h3.2 58 (hA.colon n) (by decide)

/-- The address of an authority that is read is not brought to the form the constructors give it: a mapped address in hexadecimal is accepted, and does
not match the authority made of the same address. -/
theorem C86_mapped_counterexample (A : Asio) (b : Bytes) (n : BitVec 128) (hne : b ≠ []) (hb : ∀ c ∈ b, c ∈ ascii "0123456789abcdef:")
    (hm : A.make b = some (.v6 n)) (hn : isMapped n = true) :
    Authority.read A (ascii "[" ++ b ++ ascii "]") = some ⟨.v6 n, 0, 0⟩ ∧ Authority.eqv ⟨.v6 n, 0, 0⟩ (Authority.make (.v6 n) 0 0) = false := by
  constructor
  · refine (C86_authority A _ _ (.self _) (by rw [brk.1]; simp) (append_noWs (append_noWs (by decide) fun c hc => hex_ws c (hb c hc)) (by decide)) _).2
      ⟨_, [], [], by simp, .inr ⟨b, hne, hb, rfl, hm⟩, .inl ⟨rfl, rfl⟩, .inl ⟨rfl, rfl⟩, by simp⟩
  · simp [Authority.make, denormalize, hn, Authority.eqv]

/-! ### Matching -/

/-- The addresses an IPv4 network matches: those with the prefix that are neither the first nor the last; the address itself for a prefix of 32, but not the
last address of all. -/
theorem C86_member4 (ip net : UInt32) (cidr : Nat) : isMember (.v4 ip) (.v4 net) cidr = true ↔
    (cidr < 32 ∧ ip.toNat / 2 ^ (32 - cidr) = net.toNat / 2 ^ (32 - cidr) ∧ ip.toNat % 2 ^ (32 - cidr) ≠ 0 ∧ ip.toNat % 2 ^ (32 - cidr) ≠ 2 ^ (32 - cidr) - 1) ∨
    (cidr = 32 ∧ ip = net ∧ net.toNat ≠ 2 ^ 32 - 1) := by
  show isMember4 ip net cidr = true ↔ _
  unfold isMember4
  have h1 := ip.toNat_lt
  have h2 := net.toNat_lt
  by_cases hc : cidr > 32
  · rw [if_pos hc]
    simp only [Bool.false_eq_true, false_iff]
    omega
  · rw [if_neg hc]
    by_cases hc2 : cidr = 32
    · rw [if_pos hc2, decide_eq_true_eq]
      have e : ip = net ↔ ip.toNat = net.toNat := UInt32.toNat_inj.symm
      rw [e]
      omega
    · rw [if_neg hc2]
      dsimp only
      rw [decide_eq_true_eq]
      have hk : 32 - cidr = (32 - cidr - 1) + 1 := by omega
      have hsize : 2 ≤ 2 ^ (32 - cidr) := by
        rw [hk, Nat.pow_succ]; have := Nat.pow_pos (n := 32 - cidr - 1) (show 0 < 2 by decide); omega
      have hmul : 2 ^ cidr * 2 ^ (32 - cidr) = 2 ^ 32 := by rw [← Nat.pow_add]; congr 1; omega
      generalize 2 ^ (32 - cidr) = size at hsize hmul ⊢
      have hq : net.toNat / size < 2 ^ cidr := by
        rw [Nat.div_lt_iff_lt_mul (by omega), hmul]; exact h2
      have hfs : net.toNat / size * size + size ≤ 2 ^ 32 := by
        have := Nat.mul_le_mul_right size (show net.toNat / size + 1 ≤ 2 ^ cidr from hq)
        rw [Nat.add_mul, Nat.one_mul, hmul] at this
        exact this
      have hmod : (net.toNat / size * size + 1) % 2 ^ 32 = net.toNat / size * size + 1 := Nat.mod_eq_of_lt (by omega)
      rw [hmod]
      have hdm := Nat.div_add_mod ip.toNat size
      have hml := Nat.mod_lt ip.toNat (show size > 0 by omega)
      constructor
      · intro h
        left
        have hdiv : ip.toNat / size = net.toNat / size := by
          apply Nat.div_eq_of_lt_le
          · omega
          · rw [Nat.add_mul, Nat.one_mul]; omega
        rw [hdiv, Nat.mul_comm] at hdm
        exact ⟨by omega, hdiv, by omega, by omega⟩
      · rintro (⟨-, hdiv, h3, h4⟩ | ⟨h, -⟩)
        · rw [hdiv, Nat.mul_comm] at hdm
          omega
        · exact absurd h hc2

/-- The addresses an IPv6 network matches: those with the prefix, unless it is the last network of all. -/
theorem C86_member6 (ip net : BitVec 128) (cidr : Nat) : isMember (.v6 ip) (.v6 net) cidr = true ↔
    cidr ≤ 128 ∧ ip.toNat / 2 ^ (128 - cidr) = net.toNat / 2 ^ (128 - cidr) ∧ net.toNat / 2 ^ (128 - cidr) ≠ 2 ^ cidr - 1 := by
  show isMember6 ip net cidr = true ↔ _
  unfold isMember6
  have h1 := ip.isLt
  have h2 := net.isLt
  by_cases hc : cidr > 128
  · rw [if_pos hc]
    simp only [Bool.false_eq_true, false_iff]
    omega
  · rw [if_neg hc]
    dsimp only
    rw [decide_eq_true_eq]
    have hsize : 0 < 2 ^ (128 - cidr) := Nat.pow_pos (by decide)
    have hmul : 2 ^ cidr * 2 ^ (128 - cidr) = 2 ^ 128 := by rw [← Nat.pow_add]; congr 1; omega
    have hpos : 0 < 2 ^ cidr := Nat.pow_pos (by decide)
    generalize 2 ^ (128 - cidr) = size at hsize hmul ⊢
    have hq : net.toNat / size < 2 ^ cidr := by
      rw [Nat.div_lt_iff_lt_mul hsize, hmul]; exact h2
    generalize net.toNat / size = q at hq ⊢
    generalize 2 ^ cidr = top at hq hmul hpos ⊢
    have hdm := Nat.div_add_mod ip.toNat size
    have hml := Nat.mod_lt ip.toNat hsize
    have hqs : q * size + size = (q + 1) * size := by rw [Nat.add_mul, Nat.one_mul]
    by_cases htop : q = top - 1
    · have he : q * size + size = 2 ^ 128 := by rw [hqs, show q + 1 = top from by omega, hmul]
      rw [he, Nat.mod_self]
      constructor
      · intro h; omega
      · rintro ⟨-, -, h⟩; exact absurd htop h
    · have hlt : q * size + size < 2 ^ 128 := by
        have : (q + 1 + 1) * size ≤ top * size := Nat.mul_le_mul_right size (by omega)
        rw [Nat.add_mul (q + 1), Nat.one_mul, hmul] at this
        omega
      rw [Nat.mod_eq_of_lt hlt]
      constructor
      · intro h
        exact ⟨by omega, Nat.div_eq_of_lt_le (by omega) (by rw [← hqs]; omega), htop⟩
      · rintro ⟨-, hdiv, -⟩
        rw [hdiv, Nat.mul_comm] at hdm
        omega

/-- Authorities match if their ports are equal or one is zero, and they have one address and one prefix, or one is a host and in the network of the other.
Matching is reflexive and symmetric. -/
theorem C86_match (a b : Authority) :
    (a.eqv b = true ↔ (a.port = b.port ∨ a.port = 0 ∨ b.port = 0) ∧
      ((a.cidr = b.cidr ∧ a.ip = b.ip) ∨ (a.cidr = 0 ∧ b.cidr ≠ 0 ∧ isMember a.ip b.ip b.cidr = true) ∨ (b.cidr = 0 ∧ a.cidr ≠ 0 ∧ isMember b.ip a.ip a.cidr = true))) ∧
    a.eqv a = true ∧ a.eqv b = b.eqv a := by
  have key : ∀ a b : Authority, a.eqv b = true ↔ (a.port = b.port ∨ a.port = 0 ∨ b.port = 0) ∧
      ((a.cidr = b.cidr ∧ a.ip = b.ip) ∨ (a.cidr = 0 ∧ b.cidr ≠ 0 ∧ isMember a.ip b.ip b.cidr = true) ∨ (b.cidr = 0 ∧ a.cidr ≠ 0 ∧ isMember b.ip a.ip a.cidr = true)) := by
    intro a b
    unfold Authority.eqv
    by_cases hp : (a.port ≠ 0 ∧ b.port ≠ 0) ∧ a.port ≠ b.port
    · rw [if_pos hp]
      simp only [Bool.false_eq_true, false_iff]
      omega
    · rw [if_neg hp]
      have hp' : a.port = b.port ∨ a.port = 0 ∨ b.port = 0 := by omega
      simp only [hp', true_and]
      by_cases hc : (a.cidr ≠ 0 ∧ b.cidr ≠ 0) ∧ a.cidr ≠ b.cidr
      · rw [if_pos hc]
        simp only [Bool.false_eq_true, false_iff]
        omega
      · rw [if_neg hc]
        by_cases he : a.cidr = b.cidr
        · rw [if_pos he, decide_eq_true_eq]
          constructor
          · intro h; exact .inl ⟨he, h⟩
          · rintro (⟨-, h⟩ | ⟨h1, h2, -⟩ | ⟨h1, h2, -⟩)
            · exact h
            · omega
            · omega
        · rw [if_neg he]
          by_cases h0 : a.cidr = 0
          · rw [if_pos h0]
            constructor
            · intro h; exact .inr (.inl ⟨h0, by omega, h⟩)
            · rintro (⟨h, -⟩ | ⟨-, -, h⟩ | ⟨h1, h2, -⟩)
              · exact absurd h he
              · exact h
              · exact absurd h0 h2
          · rw [if_neg h0]
            constructor
            · intro h; exact .inr (.inr ⟨by omega, h0, h⟩)
            · rintro (⟨h, -⟩ | ⟨h, -⟩ | ⟨-, -, h⟩)
              · exact absurd h he
              · exact absurd h h0
              · exact h
  refine ⟨key a b, (key a a).2 ⟨.inl rfl, .inl ⟨rfl, rfl⟩⟩, ?_⟩
  rw [Bool.eq_iff_iff, key, key]
  constructor
  · rintro ⟨h1, h2⟩
    refine ⟨by omega, ?_⟩
    rcases h2 with ⟨h2, h3⟩ | h2 | h2
    · exact .inl ⟨h2.symm, h3.symm⟩
    · exact .inr (.inr h2)
    · exact .inr (.inl h2)
  · rintro ⟨h1, h2⟩
    refine ⟨by omega, ?_⟩
    rcases h2 with ⟨h2, h3⟩ | h2 | h2
    · exact .inl ⟨h2.symm, h3.symm⟩
    · exact .inr (.inr h2)
    · exact .inr (.inl h2)

/-- Matching is not an equivalence: two hosts match one network and not each other; two ports match none and not each other. -/
theorem C86_match_counterexample : (∃ a b c : Authority, a.eqv b = true ∧ b.eqv c = true ∧ a.eqv c = false) ∧
    (∃ a b c : Authority, a.ip = c.ip ∧ a.eqv b = true ∧ b.eqv c = true ∧ a.eqv c = false) :=
  ⟨⟨⟨.v4 0x0a000001, 0, 0⟩, ⟨.v4 0x0a000000, 0, 8⟩, ⟨.v4 0x0a000002, 0, 0⟩, by decide +kernel, by decide +kernel, by decide +kernel⟩,
    ⟨.v4 1, 1, 0⟩, ⟨.v4 1, 0, 0⟩, ⟨.v4 1, 2, 0⟩, rfl, by decide +kernel, by decide +kernel, by decide +kernel⟩

/-! ### The hypotheses are met -/

/-- Text functions that are lawful: decimal digits and points, and a colon and hexadecimal digits. -/
def toyAsio : Asio where
  text4 n := Radix.ascii "1." ++ serialize n.toNat
  text6 n := 58 :: serialize n.toNat
  make s := match s with
    | 49 :: 46 :: s => (deserialize (2 ^ 32) s).map fun n => .v4 (UInt32.ofNat n)
    | 58 :: s => (deserialize (2 ^ 128) s).map fun n => .v6 (BitVec.ofNat 128 n)
    | _ => none

theorem toy_lawful : Lawful toyAsio ∧ ∀ n, Plain toyAsio n := by
  have hd : ∀ c : UInt8, Base10.isDigit c = true → c ∈ ascii "0123456789." ∧ c ∈ ascii "0123456789abcdef:" := by apply Der.byte_forall; decide +kernel
  refine ⟨⟨fun n => ⟨by simp [toyAsio, Config.dec_ne], fun c hc => ?_⟩, fun n => ?_, fun n => ?_, fun n => ?_⟩, fun n c hc => ?_⟩
  · rcases List.mem_append.1 hc with hc | hc
    · have : ∀ c ∈ ascii "1.", c ∈ ascii "0123456789." := by decide
      exact this c hc
    · exact (hd c (Config.dec_digit _ c hc)).1
  · show (deserialize (2 ^ 32) (serialize n.toNat)).map _ = _
    rw [deserialize_dec, if_pos n.toNat_lt, Option.map_some, UInt32.ofNat_toNat]
  · simp [toyAsio]
  · show (deserialize (2 ^ 128) (serialize n.toNat)).map _ = _
    rw [deserialize_dec, if_pos n.isLt, Option.map_some, BitVec.ofNat_toNat, BitVec.setWidth_eq]
  · rcases List.mem_cons.1 hc with rfl | hc
    · decide
    · exact (hd c (Config.dec_digit _ c hc)).2

example : Authority.read toyAsio (ascii " 1.7:8333/24 x") = some ⟨.v4 7, 8333, 24⟩ ∧ Authority.read toyAsio (ascii "1.7:8333/33") = none ∧
    Authority.read toyAsio (ascii "[:7]:65535/128") = some ⟨.v6 7, 65535, 128⟩ ∧ Authority.read toyAsio (ascii "[:7]:65536") = none ∧
    Authority.read toyAsio (ascii "[:7]:080") = none ∧ Authority.read toyAsio (ascii ":7") = none := by decide +kernel
example : Endpoint.read (ascii "[::1]:8333") = some ⟨ascii "[::1]", 8333⟩ ∧ Endpoint.read (ascii "a.b:1") = some ⟨ascii "a.b", 1⟩ ∧ Endpoint.read (ascii "::1") = none ∧
    Endpoint.read (ascii "[ab]x:5") = some ⟨ascii "[ab]x", 5⟩ := by decide +kernel
example : Url.read (ascii "https://*:80") = some ⟨ascii "https", ascii "*", 80⟩ ∧ Url.read (ascii "ftp://a") = none ∧ Url.read (ascii "tcp") = some ⟨[], ascii "tcp", 0⟩ := by
  decide +kernel
example : isMember (.v4 0x0a0000ff) (.v4 0x0a000000) 24 = false ∧ isMember (.v4 0x0a0000fe) (.v4 0x0a000000) 24 = true := by decide +kernel
example : Url.read (Url.ofAuthority toyAsio ⟨.v6 7, 0, 0⟩).write ≠ some (Url.ofAuthority toyAsio ⟨.v6 7, 0, 0⟩) :=
  C86_url_counterexample toyAsio toy_lawful.1 _ 7 (by decide +kernel) (toy_lawful.2 7)

end Verif.Network
