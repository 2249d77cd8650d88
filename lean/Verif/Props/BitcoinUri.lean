import Verif.Spec.BitcoinUri
import Verif.Lemmas.Words
import Verif.Props.Base10
import Verif.Props.Wallet
import Verif.Props.Stealth
import Mathlib.Data.Countable.Basic
/-!
# C45: bitcoin URIs
-/
namespace Verif.Uri
open Verif
open Verif.Mnemonic

/-! ## Maps -/

/-- The keys increase strictly. -/
def Sorted (q : Query) : Prop := q.Pairwise fun a b => strLt a.1 b.1 = true

theorem mem_set {q : Query} {k v : Bytes} {p : Bytes × Bytes} (h : p ∈ q.set k v) : p = (k, v) ∨ p ∈ q := by
  induction q with
  | nil => simpa [Query.set] using h
  | cons a q ih =>
    unfold Query.set at h
    split at h
    · simpa using h
    · split at h
      · rcases List.mem_cons.1 h with h | h
        · exact Or.inl h
        · exact Or.inr (List.mem_cons_of_mem _ h)
      · rcases List.mem_cons.1 h with h | h
        · exact Or.inr (h ▸ List.mem_cons_self)
        · exact (ih h).imp id (List.mem_cons_of_mem _)

theorem sorted_set {q : Query} (h : Sorted q) (k v : Bytes) : Sorted (q.set k v) := by
  induction q with
  | nil => simp [Query.set, Sorted]
  | cons a q ih =>
    obtain ⟨h1, h2⟩ := List.pairwise_cons.1 h
    obtain ⟨k', v'⟩ := a
    unfold Query.set
    split
    · rename_i hlt
      refine List.pairwise_cons.2 ⟨fun p hp => ?_, h⟩
      rcases List.mem_cons.1 hp with rfl | hp
      · exact hlt
      · exact strLt_trans hlt (h1 p hp)
    · split
      · rename_i he
        subst he
        exact List.pairwise_cons.2 ⟨h1, h2⟩
      · rename_i hlt hne
        refine List.pairwise_cons.2 ⟨fun p hp => ?_, ih h2⟩
        rcases mem_set hp with rfl | hp
        · cases hk : strLt k' k with
          | true => rfl
          | false => exact absurd (strLt_total hk (by simpa using hlt)) hne
        · exact h1 p hp

theorem get_set {q : Query} (h : Sorted q) (k v key : Bytes) : (q.set k v).get key = if key = k then some v else q.get key := by
  induction q with
  | nil =>
    by_cases hk : k = key
    · simp [Query.set, Query.get, hk]
    · simp [Query.set, Query.get, hk, Ne.symm hk]
  | cons a q ih =>
    obtain ⟨h1, h2⟩ := List.pairwise_cons.1 h
    obtain ⟨k', v'⟩ := a
    have ih := ih h2
    unfold Query.set
    by_cases hlt : strLt k k' = true
    · rw [if_pos hlt]
      by_cases hk : k = key
      · simp [Query.get, hk]
      · simp [Query.get, hk, Ne.symm hk]
    · rw [if_neg hlt]
      by_cases he : k' = k
      · rw [if_pos he]
        by_cases hk : k = key
        · simp [Query.get, hk]
        · simp [Query.get, hk, he, Ne.symm hk]
      · rw [if_neg he]
        unfold Query.get at *
        simp only [List.find?_cons]
        by_cases hk : k' = key
        · have : ¬ key = k := fun h => he (hk.trans h)
          simp [hk, this]
        · have hb : (k' == key) = false := by simpa using hk
          simp only [hb]
          exact ih

theorem get_mem {q : Query} {k v : Bytes} (h : q.get k = some v) : (k, v) ∈ q := by
  unfold Query.get at h
  obtain ⟨p, h1, h2⟩ := Option.map_eq_some_iff.1 h
  have h3 := List.find?_some h1
  have h4 := List.mem_of_find?_eq_some h1
  simp only [beq_iff_eq] at h3
  rw [← h3, ← h2]; exact h4

theorem mem_get {q : Query} (hs : Sorted q) {k v : Bytes} (h : (k, v) ∈ q) : q.get k = some v := by
  induction q with
  | nil => cases h
  | cons a q ih =>
    obtain ⟨h1, h2⟩ := List.pairwise_cons.1 hs
    unfold Query.get at *
    rcases List.mem_cons.1 h with rfl | h
    · simp
    · have hne : ¬ a.1 = k := by
        intro he
        have := h1 _ h
        rw [he, strLt_irrefl] at this
        cases this
      have hb : (a.1 == k) = false := by simpa using hne
      simp only [List.find?_cons, hb]
      exact ih h2 h

theorem ext {q r : Query} (hq : Sorted q) (hr : Sorted r) (h : ∀ k, q.get k = r.get k) : q = r := by
  have hmem : ∀ p, p ∈ q ↔ p ∈ r := by
    rintro ⟨k, v⟩
    exact ⟨fun hp => get_mem (h k ▸ mem_get hq hp), fun hp => get_mem ((h k).symm ▸ mem_get hr hp)⟩
  clear h
  induction q generalizing r with
  | nil =>
    cases r with
    | nil => rfl
    | cons a r => exact absurd ((hmem a).2 List.mem_cons_self) (by simp)
  | cons a q ih =>
    cases r with
    | nil => exact absurd ((hmem a).1 List.mem_cons_self) (by simp)
    | cons c r =>
      obtain ⟨h1, h2⟩ := List.pairwise_cons.1 hq
      obtain ⟨g1, g2⟩ := List.pairwise_cons.1 hr
      have hac : a = c := by
        rcases List.mem_cons.1 ((hmem a).1 List.mem_cons_self) with h | h
        · exact h
        · rcases List.mem_cons.1 ((hmem c).2 List.mem_cons_self) with h' | h'
          · exact h'.symm
          · have := strLt_trans (h1 _ h') (g1 _ h)
            rw [strLt_irrefl] at this; cases this
      subst hac
      rw [ih h2 g2 fun p => ?_]
      constructor
      · intro hp
        rcases List.mem_cons.1 ((hmem p).1 (List.mem_cons_of_mem _ hp)) with h | h
        · have := h1 _ hp; rw [h, strLt_irrefl] at this; cases this
        · exact h
      · intro hp
        rcases List.mem_cons.1 ((hmem p).2 (List.mem_cons_of_mem _ hp)) with h | h
        · have := g1 _ hp; rw [h, strLt_irrefl] at this; cases this
        · exact h

theorem fold_sorted (params : List (Bytes × Bytes)) : ∀ q : Query, Sorted q → Sorted (params.foldl (fun q p => q.set p.1 p.2) q) := by
  induction params with
  | nil => exact fun q h => h
  | cons p params ih => exact fun q h => ih _ (sorted_set h _ _)

theorem fold_get (params : List (Bytes × Bytes)) : ∀ q : Query, Sorted q → ∀ k v,
    (params.foldl (fun q p => q.set p.1 p.2) q).get k = some v ↔ Last params k v ∨ (q.get k = some v ∧ ∀ p ∈ params, p.1 ≠ k) := by
  induction params with
  | nil =>
    intro q _ k v
    simp [Last]
  | cons p params ih =>
    intro q h k v
    rw [List.foldl_cons, ih _ (sorted_set h _ _), get_set h]
    constructor
    · rintro (⟨l, r, h1, h2⟩ | ⟨h1, h2⟩)
      · exact Or.inl ⟨p :: l, r, by rw [h1]; rfl, h2⟩
      · by_cases hk : k = p.1
        · rw [if_pos hk] at h1
          injection h1 with h1
          exact Or.inl ⟨[], params, by rw [hk, ← h1]; rfl, h2⟩
        · rw [if_neg hk] at h1
          refine Or.inr ⟨h1, fun x hx => ?_⟩
          rcases List.mem_cons.1 hx with rfl | hx
          · exact Ne.symm hk
          · exact h2 x hx
    · rintro (⟨l, r, h1, h2⟩ | ⟨h1, h2⟩)
      · cases l with
        | nil =>
          injection h1 with h1 h3
          subst h3; subst h1
          exact Or.inr ⟨by simp, h2⟩
        | cons x l =>
          injection h1 with h1 h3
          exact Or.inl ⟨l, r, h3, h2⟩
      · refine Or.inr ⟨?_, fun x hx => h2 x (List.mem_cons_of_mem _ hx)⟩
        rw [if_neg (Ne.symm (h2 p List.mem_cons_self))]
        exact h1

theorem decodeQuery_get (params : List (Bytes × Bytes)) (k v : Bytes) : (decodeQuery params).get k = some v ↔ Last params k v := by
  unfold decodeQuery
  rw [fold_get params [] (by simp [Sorted])]
  simp [Query.get]

theorem decodeQuery_self {q : Query} (h : Sorted q) : decodeQuery q = q := by
  refine ext (fold_sorted _ _ (by simp [Sorted])) h fun k => ?_
  have key : ∀ v, (decodeQuery q).get k = some v ↔ q.get k = some v := by
    intro v
    rw [decodeQuery_get]
    constructor
    · rintro ⟨l, r, h1, -⟩
      exact mem_get h (by rw [h1]; simp)
    · intro hg
      obtain ⟨l, r, h1⟩ := List.append_of_mem (get_mem hg)
      refine ⟨l, r, h1, fun p hp he => ?_⟩
      rw [h1] at h
      have := (List.pairwise_cons.1 (List.pairwise_append.1 h).2.1).1 p hp
      rw [he] at this
      simp only [strLt_irrefl] at this
      cases this
  exact Option.ext key


/-! ## Setting the parameters -/

/-- What is stored of a parameter. -/
def entry (k v : Bytes) : Option Bytes :=
  if k = amountKey then (Base10.decode v 8 true).map fun n => Base10.encode n 8
  else if k = labelKey ∨ k = messageKey ∨ k = rKey then some v else none

/-- A parameter that is not refused. -/
def Allowed (k v : Bytes) : Prop := (k = amountKey → (Base10.decode v 8 true).isSome = true) ∧ k.take 4 ≠ Radix.ascii "req-"
instance (k v : Bytes) : Decidable (Allowed k v) := inferInstanceAs (Decidable (_ ∧ _))

def put (u : BitcoinUri) (p : Bytes × Bytes) : BitcoinUri :=
  match entry p.1 p.2 with
  | some e => { u with query := u.query.set p.1 e }
  | none => u

theorem setParameter_eq (u : BitcoinUri) (k v : Bytes) : u.setParameter k v = if Allowed k v then some (put u (k, v)) else none := by
  unfold BitcoinUri.setParameter
  by_cases h1 : k = amountKey
  · rw [if_pos h1]
    have h4 : k.take 4 ≠ Radix.ascii "req-" := by rw [h1]; decide
    unfold BitcoinUri.setAmountText
    cases hd : Base10.decode v 8 true with
    | none =>
      rw [if_neg (fun h => by have := h.1 h1; rw [hd] at this; cases this)]; rfl
    | some n =>
      rw [if_pos ⟨fun _ => by rw [hd]; rfl, h4⟩]
      unfold put entry
      simp only [if_pos h1, hd, Option.map_some]
      rw [h1]; rfl
  · rw [if_neg h1]
    have hA : Allowed k v ↔ k.take 4 ≠ Radix.ascii "req-" := by simp [Allowed, h1]
    dsimp only
    by_cases hr : k.take 4 = Radix.ascii "req-"
    · rw [if_pos hr, if_neg (fun h => hA.1 h hr)]
    · rw [if_neg hr, if_pos (hA.2 hr)]
      unfold put entry
      simp only [if_neg h1]
      by_cases h2 : k = labelKey
      · simp [h2, BitcoinUri.setLabel]
      · by_cases h3 : k = messageKey
        · simp [h3, BitcoinUri.setMessage, show messageKey ≠ labelKey by decide]
        · by_cases h4 : k = rKey
          · simp [h4, BitcoinUri.setR, show rKey ≠ labelKey by decide, show rKey ≠ messageKey by decide]
          · simp [h2, h3, h4]

theorem setAll_eq (l : List (Bytes × Bytes)) : ∀ u, setAll l u = if ∀ p ∈ l, Allowed p.1 p.2 then some (l.foldl put u) else none := by
  induction l with
  | nil => intro u; simp [setAll]
  | cons p l ih =>
    intro u
    obtain ⟨k, v⟩ := p
    have hstep : setAll ((k, v) :: l) u = (u.setParameter k v).bind (setAll l) := by
      show (if k.isEmpty then setAll l u else (u.setParameter k v).bind (setAll l)) = _
      by_cases hk : k.isEmpty = true
      · rw [if_pos hk]
        have : k = [] := by simpa using hk
        subst this
        rw [setParameter_eq, if_pos ⟨fun h => absurd h (by decide), by decide⟩]
        have : put u ([], v) = u := by unfold put entry; simp [show ([] : Bytes) ≠ amountKey by decide, show ([] : Bytes) ≠ labelKey by decide, show ([] : Bytes) ≠ messageKey by decide, show ([] : Bytes) ≠ rKey by decide]
        rw [this]; rfl
      · rw [if_neg hk]
    rw [hstep, setParameter_eq]
    by_cases ha : Allowed k v
    · rw [if_pos ha]
      show setAll l (put u (k, v)) = _
      rw [ih]
      by_cases hl : ∀ p ∈ l, Allowed p.1 p.2
      · rw [if_pos hl, if_pos (fun p hp => by rcases List.mem_cons.1 hp with rfl | hp; exacts [ha, hl p hp])]; rfl
      · rw [if_neg hl, if_neg (fun h => hl fun p hp => h p (List.mem_cons_of_mem _ hp))]
    · rw [if_neg ha, if_neg (fun h => ha (h (k, v) List.mem_cons_self))]; rfl

theorem put_fields (u : BitcoinUri) (p) : (put u p).scheme = u.scheme ∧ (put u p).address = u.address := by
  unfold put; split <;> exact ⟨rfl, rfl⟩

theorem fold_fields (l : List (Bytes × Bytes)) : ∀ u, (l.foldl put u).scheme = u.scheme ∧ (l.foldl put u).address = u.address := by
  induction l with
  | nil => exact fun u => ⟨rfl, rfl⟩
  | cons p l ih => intro u; rw [List.foldl_cons, (ih _).1, (ih _).2]; exact put_fields u p

theorem put_sorted {u : BitcoinUri} (h : Sorted u.query) (p) : Sorted (put u p).query := by
  unfold put; split
  · exact sorted_set h _ _
  · exact h

theorem fold_put_sorted (l : List (Bytes × Bytes)) : ∀ u, Sorted u.query → Sorted (l.foldl put u).query := by
  induction l with
  | nil => exact fun u h => h
  | cons p l ih => exact fun u h => ih _ (put_sorted h p)

theorem put_get {u : BitcoinUri} (h : Sorted u.query) (p : Bytes × Bytes) (k : Bytes) :
    (put u p).query.get k = if k = p.1 then (entry p.1 p.2).or (u.query.get k) else u.query.get k := by
  unfold put
  cases he : entry p.1 p.2 with
  | none => simp
  | some e => simp only [get_set h, Option.some_or]

theorem cons_get (p : Bytes × Bytes) (l : Query) (k : Bytes) : Query.get (p :: l) k = if k = p.1 then some p.2 else Query.get l k := by
  unfold Query.get
  by_cases h : k = p.1
  · simp [h]
  · have : (p.1 == k) = false := by simpa using Ne.symm h
    simp [List.find?_cons, this, h]

theorem fold_put_get (l : Query) (hl : Sorted l) : ∀ u, Sorted u.query → ∀ k,
    (l.foldl put u).query.get k = ((l.get k).bind (entry k)).or (u.query.get k) := by
  induction l with
  | nil => intro u _ k; simp [Query.get]
  | cons p l ih =>
    intro u h k
    obtain ⟨h1, h2⟩ := List.pairwise_cons.1 hl
    rw [List.foldl_cons, ih h2 _ (put_sorted h p), put_get h, cons_get]
    by_cases hk : k = p.1
    · have hn : Query.get l k = none := by
        cases hg : Query.get l k with
        | none => rfl
        | some v =>
          have := h1 _ (get_mem hg)
          rw [hk] at this
          simp only [strLt_irrefl] at this
          cases this
      rw [if_pos hk, if_pos hk, hn]
      simp [hk]
    · rw [if_neg hk, if_neg hk]

/-! ## The invariant -/

variable {b : Sha.Build} {urls : Urls}

theorem empty_address : isAddress b [] = false := by
  unfold isAddress Wallet.Address.fromString Stealth.Address.fromString
  rw [show Radix.decode58 [] = some [] by decide]
  dsimp only
  rw [show Stealth.Address.fromChunk b [] = some Stealth.Address.none from rfl]
  simp [Wallet.none_invalid]
  decide

theorem isAddress_iff (t : Bytes) : isAddress b t = true ↔ IsAddress b t := by
  unfold isAddress IsAddress
  rw [Bool.or_eq_true, (Wallet.C63_address_accepts t).1]
  refine or_congr_right ?_
  cases Stealth.Address.fromString b t <;> simp

theorem address_chars {t : Bytes} (h : isAddress b t = true) : ∀ c ∈ t, c ∈ Radix.base58Chars := by
  rw [← Radix.C32_accepts]
  unfold isAddress Wallet.Address.fromString Stealth.Address.fromString at h
  cases hd : Radix.decode58 t with
  | some d => rfl
  | none =>
    rw [hd] at h
    simp [Wallet.none_invalid] at h
    exact absurd h (by decide)

theorem base58_alphanumeric : ∀ c ∈ Radix.base58Chars, Alphanumeric c := by
  unfold Alphanumeric; decide +kernel

structure Good (b : Sha.Build) (u : BitcoinUri) : Prop where
  scheme : u.scheme = [] ∨ u.scheme = bitcoin
  address : u.address = [] ∨ isAddress b u.address = true
  sorted : Sorted u.query
  keys : ∀ k v, u.query.get k = some v → k = amountKey ∨ k = labelKey ∨ k = messageKey ∨ k = rKey
  amount : ∀ v, u.query.get amountKey = some v → ∃ n < 2 ^ 64, v = Base10.encode n 8

theorem setAddress_eq (u : BitcoinUri) (t : Bytes) (w : BitcoinUri) : u.setAddress b t = some w ↔ isAddress b t = true ∧ w = { u with address := t } := by
  unfold BitcoinUri.setAddress
  by_cases h : isAddress b t = true
  · rw [if_pos h]
    exact ⟨fun hw => ⟨h, (Option.some.inj hw).symm⟩, fun hw => by rw [hw.2]⟩
  · rw [if_neg h]
    exact ⟨fun hw => (by cases hw), fun hw => absurd hw.1 h⟩

theorem setPath_eq (u : BitcoinUri) (t : Bytes) (w : BitcoinUri) :
    u.setPath b t = some w ↔ u.address = [] ∧ isAddress b t = true ∧ w = { u with address := t } := by
  unfold BitcoinUri.setPath
  by_cases h : u.address.isEmpty = true
  · rw [if_pos h, setAddress_eq]; simp_all
  · rw [if_neg h]; simp_all

/-- What the text of an URI, once split, stands for. -/
theorem parse_eq (text : Bytes) (u : BitcoinUri) : parse b urls text = some u ↔
    text ≠ [] ∧ ∃ parts, urls.parse text = some parts ∧ lower parts.scheme = bitcoin ∧ parts.fragment = none ∧
      (∀ p ∈ decodeQuery parts.params, Allowed p.1 p.2) ∧
      ∃ address, u = (decodeQuery parts.params).foldl put ⟨bitcoin, address, []⟩ ∧
        (parts.authority = none ∧ parts.path = [] ∧ address = [] ∨
         parts.authority = none ∧ parts.path ≠ [] ∧ isAddress b parts.path = true ∧ address = parts.path ∨
         parts.authority = some address ∧ parts.path = [] ∧ isAddress b address = true) := by
  unfold parse
  by_cases ht : text.isEmpty = true
  · rw [if_pos ht]
    have : text = [] := by simpa using ht
    simp [this]
  · rw [if_neg ht]
    have ht' : text ≠ [] := by simpa using ht
    cases hp : urls.parse text with
    | none => simp
    | some parts =>
      rw [Option.bind_some]
      constructor
      · intro h
        obtain ⟨w0, h0, h⟩ := Option.bind_eq_some_iff.1 h
        obtain ⟨w1, h1, h⟩ := Option.bind_eq_some_iff.1 h
        obtain ⟨w2, h2, h⟩ := Option.bind_eq_some_iff.1 h
        obtain ⟨w3, h3, h⟩ := Option.bind_eq_some_iff.1 h
        rw [setAll_eq] at h
        by_cases ha : ∀ p ∈ decodeQuery parts.params, Allowed p.1 p.2
        · rw [if_pos ha] at h
          injection h with h
          have h0 : (if lower parts.scheme = bitcoin then some { BitcoinUri.empty with scheme := lower parts.scheme } else none) = some w0 := h0
          by_cases hs : lower parts.scheme = bitcoin
          · rw [if_pos hs] at h0
            injection h0 with h0
            have h0 : w0 = ⟨bitcoin, [], []⟩ := by
              rw [← h0]
              show BitcoinUri.mk (lower parts.scheme) _ _ = _
              rw [hs]; rfl
            subst h0
            unfold fragmentStep at h3
            by_cases hf : parts.fragment.isSome = true
            · rw [if_pos hf] at h3; cases h3
            · rw [if_neg hf] at h3
              injection h3 with h3; subst h3
              have hf : parts.fragment = none := by simpa using hf
              refine ⟨ht', parts, rfl, hs, hf, ha, ?_⟩
              unfold authorityStep at h1
              unfold pathStep at h2
              cases hau : parts.authority with
              | none =>
                rw [hau] at h1
                injection h1 with h1; subst h1
                by_cases hpath : parts.path = []
                · rw [hpath] at h2
                  injection h2 with h2; subst h2
                  exact ⟨[], h.symm, Or.inl ⟨rfl, hpath, rfl⟩⟩
                · rw [if_neg (by simpa using hpath)] at h2
                  obtain ⟨-, h3, rfl⟩ := (setPath_eq _ _ _).1 h2
                  exact ⟨_, h.symm, Or.inr (Or.inl ⟨rfl, hpath, h3, rfl⟩)⟩
              | some a =>
                rw [hau] at h1
                obtain ⟨-, h3, rfl⟩ := (setPath_eq _ _ _).1 h1
                by_cases hpath : parts.path = []
                · rw [hpath] at h2
                  injection h2 with h2; subst h2
                  exact ⟨a, h.symm, Or.inr (Or.inr ⟨rfl, hpath, h3⟩)⟩
                · rw [if_neg (by simpa using hpath)] at h2
                  obtain ⟨h4, -, -⟩ := (setPath_eq _ _ _).1 h2
                  simp only at h4
                  rw [h4, empty_address] at h3; cases h3
          · rw [if_neg hs] at h0; cases h0
        · rw [if_neg ha] at h; cases h
      · rintro ⟨-, parts', he, hs, hf, ha, a, rfl, hor⟩
        injection he with he; subst he
        have h0 : BitcoinUri.empty.setScheme (lower parts.scheme) = some ⟨bitcoin, [], []⟩ := by rw [hs]; rfl
        refine Option.bind_eq_some_iff.2 ⟨_, h0, ?_⟩
        have h2 : ∀ w, fragmentStep parts w = some w := fun w => by unfold fragmentStep; rw [hf]; rfl
        have h3 : ∀ w, setAll (decodeQuery parts.params) w = some ((decodeQuery parts.params).foldl put w) := fun w => by
          rw [setAll_eq, if_pos ha]
        have h1 : ∃ w, authorityStep b parts ⟨bitcoin, [], []⟩ = some w ∧ pathStep b parts w = some ⟨bitcoin, a, []⟩ := by
          unfold authorityStep pathStep
          rcases hor with ⟨h1, h2, rfl⟩ | ⟨h1, h2, h3, rfl⟩ | ⟨h1, h2, h3⟩
          · rw [h1, h2]; exact ⟨_, rfl, rfl⟩
          · have hn : ¬ parts.path.isEmpty = true := by simpa using h2
            rw [h1]
            simp only [if_neg hn]
            exact ⟨_, rfl, (setPath_eq _ _ _).2 ⟨rfl, h3, rfl⟩⟩
          · rw [h1, h2]
            exact ⟨_, (setPath_eq _ _ _).2 ⟨rfl, h3, rfl⟩, rfl⟩
        obtain ⟨w, h4, h5⟩ := h1
        exact Option.bind_eq_some_iff.2 ⟨w, h4, Option.bind_eq_some_iff.2 ⟨_, h5, Option.bind_eq_some_iff.2 ⟨_, h2 _, h3 _⟩⟩⟩

theorem entry_amount {v e : Bytes} (h : entry amountKey v = some e) : ∃ n < 2 ^ 64, e = Base10.encode n 8 := by
  unfold entry at h
  rw [if_pos rfl] at h
  obtain ⟨n, h1, h2⟩ := Option.map_eq_some_iff.1 h
  obtain ⟨_, _, -, -, h3, -⟩ := (Base10.C56_decode _ _ _ _).1 h1
  exact ⟨n, h3, h2.symm⟩

theorem entry_key {k v e : Bytes} (h : entry k v = some e) : k = amountKey ∨ k = labelKey ∨ k = messageKey ∨ k = rKey := by
  unfold entry at h
  split at h
  · exact Or.inl ‹_›
  · split at h
    · exact Or.inr ‹_›
    · cases h

theorem good_put {u : BitcoinUri} (h : Good b u) (p : Bytes × Bytes) : Good b (put u p) := by
  refine ⟨by rw [(put_fields u p).1]; exact h.scheme, by rw [(put_fields u p).2]; exact h.address, put_sorted h.sorted p, ?_, ?_⟩
  · intro k v hg
    rw [put_get h.sorted] at hg
    split at hg
    · rename_i he
      cases hen : entry p.1 p.2 with
      | none => rw [hen] at hg; exact h.keys k v hg
      | some e => rw [he]; exact entry_key hen
    · exact h.keys k v hg
  · intro v hg
    rw [put_get h.sorted] at hg
    split at hg
    · rename_i he
      cases hen : entry p.1 p.2 with
      | none => rw [hen] at hg; exact h.amount v hg
      | some e =>
        rw [hen] at hg
        injection hg with hg
        rw [← he] at hen
        rw [← hg]; exact entry_amount hen
    · exact h.amount v hg

theorem good_fold (l : List (Bytes × Bytes)) : ∀ u, Good b u → Good b (l.foldl put u) := by
  induction l with
  | nil => exact fun u h => h
  | cons p l ih => exact fun u h => ih _ (good_put h p)

theorem good_base (s a : Bytes) (hs : s = [] ∨ s = bitcoin) (ha : a = [] ∨ isAddress b a = true) : Good b ⟨s, a, []⟩ :=
  ⟨hs, ha, by simp [Sorted], fun k v h => by simp [Query.get] at h, fun v h => by simp [Query.get] at h⟩

theorem good_address {u : BitcoinUri} (h : Good b u) (a : Bytes) (ha : isAddress b a = true) : Good b { u with address := a } :=
  ⟨h.scheme, Or.inr ha, h.sorted, h.keys, h.amount⟩

theorem good_set {u : BitcoinUri} (h : Good b u) (k v : Bytes) (hk : k = labelKey ∨ k = messageKey ∨ k = rKey) :
    Good b { u with query := u.query.set k v } := by
  have := good_put h (k, v)
  have ha : k ≠ amountKey := by rcases hk with rfl | rfl | rfl <;> decide
  unfold put entry at this
  simpa [hk, ha] using this

theorem good_parse {t : Bytes} {u : BitcoinUri} (h : parse b urls t = some u) : Good b u := by
  obtain ⟨-, parts, -, -, -, -, a, rfl, ha⟩ := (parse_eq t u).1 h
  refine good_fold _ _ (good_base _ _ (Or.inr rfl) ?_)
  rcases ha with ⟨-, -, h⟩ | ⟨-, -, h', rfl⟩ | ⟨-, -, h⟩
  · exact Or.inl h
  · exact Or.inr h'
  · exact Or.inr h

theorem reachable_good {u : BitcoinUri} (h : Reachable b urls u) : Good b u := by
  induction h with
  | empty => exact good_base _ _ (Or.inl rfl) (Or.inl rfl)
  | ofText t =>
    unfold Uri.ofText
    cases hp : parse b urls t with
    | none => exact good_base _ _ (Or.inl rfl) (Or.inl rfl)
    | some u => exact good_parse hp
  | setAmount n _ hn ih =>
    have := good_put ih (amountKey, Base10.encode n 8)
    unfold put entry at this
    simpa [Base10.C56_roundtrip n 8 hn true, BitcoinUri.setAmount] using this
  | setLabel s _ ih => exact good_set ih _ _ (Or.inl rfl)
  | setMessage s _ ih => exact good_set ih _ _ (Or.inr (Or.inl rfl))
  | setR s _ ih => exact good_set ih _ _ (Or.inr (Or.inr rfl))
  | setAddress s _ hs ih =>
    obtain ⟨h1, rfl⟩ := (setAddress_eq _ _ _).1 hs
    exact good_address ih _ h1
  | setPayment h v _ hl ih =>
    refine good_address ih _ ((isAddress_iff _).2 (Or.inl ⟨v, h, hl, (Wallet.C63_address_text v h hl).1⟩))
  | setStealth a _ ha ih =>
    obtain ⟨hv, f, l, scan, keys, s, v, hf, hs, hk, ht, he⟩ := ha
    exact good_address ih _ ((isAddress_iff _).2 (Or.inr ⟨a, (Stealth.C67_address_text f l hf scan keys s v hs hk ht a he hv).2, hv⟩))
  | setScheme s _ hs ih =>
    unfold BitcoinUri.setScheme at hs
    split at hs
    · rename_i h
      injection hs with hs; subst hs
      exact ⟨Or.inr h, ih.address, ih.sorted, ih.keys, ih.amount⟩
    · cases hs
  | setPath s _ hs ih =>
    obtain ⟨-, h1, rfl⟩ := (setPath_eq _ _ _).1 hs
    exact good_address ih _ h1
  | setParameter k v _ hs ih =>
    rw [setParameter_eq] at hs
    split at hs
    · injection hs with hs; subst hs
      exact good_put ih _
    · cases hs

/-- **C45** The text of an object reads back as that object (the scheme being set), and so with the same address, amount, label, message, request and
every other parameter. -/
theorem C45_roundtrip (hf : urls.Faithful) {u : BitcoinUri} (h : Reachable b urls u) :
    parse b urls (u.encoded urls) = some { u with scheme := bitcoin } ∧ Uri.ofText b urls (u.encoded urls) = { u with scheme := bitcoin } := by
  have hg := reachable_good h
  have key : parse b urls (u.encoded urls) = some { u with scheme := bitcoin } := by
    have halnum : ∀ c ∈ u.address, Alphanumeric c := by
      rcases hg.address with h | h
      · rw [h]; simp
      · exact fun c hc => base58_alphanumeric c (address_chars h c hc)
    have hkeys : ∀ p ∈ u.query, p.1 ≠ [] := by
      rintro ⟨k, v⟩ hp
      rcases hg.keys k v (mem_get hg.sorted hp) with h | h | h | h <;> · show k ≠ []; rw [h]; decide
    have hentry : ∀ k v, u.query.get k = some v → entry k v = some v ∧ Allowed k v := by
      intro k v hkv
      by_cases ha : k = amountKey
      · subst ha
        obtain ⟨n, hn, rfl⟩ := hg.amount v hkv
        have hd := Base10.C56_roundtrip n 8 hn true
        refine ⟨by unfold entry; rw [if_pos rfl, hd]; rfl, fun _ => by rw [hd]; rfl, by decide⟩
      · have hk := (hg.keys k v hkv).resolve_left ha
        refine ⟨by unfold entry; rw [if_neg ha, if_pos hk], fun h => absurd h ha, ?_⟩
        rcases hk with rfl | rfl | rfl <;> decide
    rw [parse_eq]
    refine ⟨hf.nonempty _ _, _, hf.reads _ _ halnum hkeys, (by decide : lower bitcoin = bitcoin), rfl, ?_, u.address, ?_, ?_⟩
    · rw [decodeQuery_self hg.sorted]
      rintro ⟨k, v⟩ hp
      exact (hentry k v (mem_get hg.sorted hp)).2
    · dsimp only
      rw [decodeQuery_self hg.sorted]
      have h1 := fold_fields u.query ⟨bitcoin, u.address, []⟩
      have h2 : (u.query.foldl put ⟨bitcoin, u.address, []⟩).query = u.query := by
        refine ext (fold_put_sorted _ _ (by simp [Sorted])) hg.sorted fun k => ?_
        rw [fold_put_get _ hg.sorted _ (by simp [Sorted])]
        cases hq : u.query.get k with
        | none => simp [Query.get]
        | some v => simp [(hentry k v hq).1]
      revert h1 h2
      generalize u.query.foldl put ⟨bitcoin, u.address, []⟩ = w
      intro h1 h2
      obtain ⟨s, a, q⟩ := w
      simp only at h1 h2
      rw [h1.1, h1.2, h2]
    · by_cases ha : u.address = []
      · exact Or.inl ⟨rfl, ha, ha⟩
      · exact Or.inr (Or.inl ⟨rfl, ha, hg.address.resolve_left ha, rfl⟩)
  exact ⟨key, by unfold Uri.ofText; rw [key]; rfl⟩

/-- **C45** The amount of an object is always defined: zero if it was never set. -/
theorem C45_amount {u : BitcoinUri} (h : Reachable b urls u) :
    (u.parameter amountKey = [] ∧ u.amount = some 0) ∨ ∃ n < 2 ^ 64, u.parameter amountKey = Base10.encode n 8 ∧ u.amount = some n := by
  have hg := reachable_good h
  unfold BitcoinUri.amount BitcoinUri.parameter
  cases hq : u.query.get amountKey with
  | none => exact Or.inl ⟨rfl, by decide⟩
  | some v =>
    obtain ⟨n, hn, rfl⟩ := hg.amount v hq
    exact Or.inr ⟨n, hn, rfl, Base10.C56_roundtrip n 8 hn false⟩

/-- **C45** Each setter changes what it sets and nothing else. -/
theorem C45_setters {u : BitcoinUri} (h : Reachable b urls u) :
    (∀ n < 2 ^ 64, (u.setAmount n).amount = some n ∧ (u.setAmount n).address = u.address ∧
      ∀ k ≠ amountKey, (u.setAmount n).parameter k = u.parameter k) ∧
    (∀ s, (u.setLabel s).parameter labelKey = s ∧ (u.setLabel s).address = u.address ∧ ∀ k ≠ labelKey, (u.setLabel s).parameter k = u.parameter k) ∧
    (∀ s, (u.setMessage s).parameter messageKey = s ∧ (u.setMessage s).address = u.address ∧
      ∀ k ≠ messageKey, (u.setMessage s).parameter k = u.parameter k) ∧
    (∀ s, (u.setR s).parameter rKey = s ∧ (u.setR s).address = u.address ∧ ∀ k ≠ rKey, (u.setR s).parameter k = u.parameter k) ∧
    (∀ t, (u.setAddress b t).isSome = true ↔ IsAddress b t) ∧
    (∀ t w, u.setAddress b t = some w → w.address = t ∧ ∀ k, w.parameter k = u.parameter k) := by
  have hs := (reachable_good h).sorted
  refine ⟨fun n hn => ⟨?_, rfl, fun k hk => ?_⟩, fun s => ⟨?_, rfl, fun k hk => ?_⟩, fun s => ⟨?_, rfl, fun k hk => ?_⟩,
    fun s => ⟨?_, rfl, fun k hk => ?_⟩, fun t => ?_, fun t w hw => ?_⟩
  · unfold BitcoinUri.amount BitcoinUri.parameter BitcoinUri.setAmount
    rw [get_set hs, if_pos rfl]
    exact Base10.C56_roundtrip n 8 hn false
  · unfold BitcoinUri.parameter BitcoinUri.setAmount; rw [get_set hs, if_neg hk]
  · unfold BitcoinUri.parameter BitcoinUri.setLabel; rw [get_set hs, if_pos rfl]; rfl
  · unfold BitcoinUri.parameter BitcoinUri.setLabel; rw [get_set hs, if_neg hk]
  · unfold BitcoinUri.parameter BitcoinUri.setMessage; rw [get_set hs, if_pos rfl]; rfl
  · unfold BitcoinUri.parameter BitcoinUri.setMessage; rw [get_set hs, if_neg hk]
  · unfold BitcoinUri.parameter BitcoinUri.setR; rw [get_set hs, if_pos rfl]; rfl
  · unfold BitcoinUri.parameter BitcoinUri.setR; rw [get_set hs, if_neg hk]
  · rw [← isAddress_iff]
    unfold BitcoinUri.setAddress; split <;> simp_all
  · obtain ⟨-, rfl⟩ := (setAddress_eq _ _ _).1 hw
    exact ⟨rfl, fun _ => rfl⟩

/-- **C45** A text is accepted exactly if it is an URI of the scheme `bitcoin` in any case, without fragment, with at most one of authority and path,
this being a valid address, with no parameter that begins with `req-` and with an exact decimal amount, if any; of a repeated
parameter the last one counts, and others than the four known ones are ignored. -/
theorem C45_accepts (text : Bytes) (u : BitcoinUri) : parse b urls text = some u ↔
    text ≠ [] ∧ ∃ parts, urls.parse text = some parts ∧ lower parts.scheme = bitcoin ∧ parts.fragment = none ∧
      (parts.authority = none ∧ parts.path = [] ∧ u.address = [] ∨
       parts.authority = none ∧ IsAddress b parts.path ∧ u.address = parts.path ∨
       parts.path = [] ∧ ∃ a, parts.authority = some a ∧ IsAddress b a ∧ u.address = a) ∧
      (∀ k v, Last parts.params k v → ¬ ∃ rest, k = Radix.ascii "req-" ++ rest) ∧
      (∀ v, Last parts.params amountKey v → ∃ n, Base10.decode v 8 true = some n) ∧
      u.scheme = bitcoin ∧ Sorted u.query ∧
      (∀ k v, u.query.get k = some v ↔
        (k = amountKey ∧ ∃ t n, Last parts.params k t ∧ Base10.decode t 8 true = some n ∧ v = Base10.encode n 8) ∨
        ((k = labelKey ∨ k = messageKey ∨ k = rKey) ∧ Last parts.params k v)) := by
  rw [parse_eq]
  refine and_congr_right fun _ => exists_congr fun parts => and_congr_right fun _ => and_congr_right fun _ => and_congr_right fun _ => ?_
  have hsort : Sorted (decodeQuery parts.params) := fold_sorted _ _ (by simp [Sorted])
  have hreq : ∀ k : Bytes, k.take 4 = Radix.ascii "req-" ↔ ∃ rest, k = Radix.ascii "req-" ++ rest := by
    intro k
    constructor
    · intro h; exact ⟨k.drop 4, by rw [← h, List.take_append_drop]⟩
    · rintro ⟨r, rfl⟩; rfl
  have hall : (∀ p ∈ decodeQuery parts.params, Allowed p.1 p.2) ↔
      (∀ k v, Last parts.params k v → ¬ ∃ rest, k = Radix.ascii "req-" ++ rest) ∧
      (∀ v, Last parts.params amountKey v → ∃ n, Base10.decode v 8 true = some n) := by
    constructor
    · intro h
      refine ⟨fun k v hl hr => (h (k, v) (get_mem ((decodeQuery_get _ _ _).2 hl))).2 ((hreq k).2 hr), fun v hl => ?_⟩
      exact Option.isSome_iff_exists.1 ((h (amountKey, v) (get_mem ((decodeQuery_get _ _ _).2 hl))).1 rfl)
    · rintro ⟨h1, h2⟩ ⟨k, v⟩ hp
      have hl := (decodeQuery_get _ _ _).1 (mem_get hsort hp)
      refine ⟨fun hk => ?_, fun hr => h1 k v hl ((hreq k).1 hr)⟩
      obtain rfl : k = amountKey := hk
      exact Option.isSome_iff_exists.2 (h2 v hl)
  have hget : ∀ (a : Bytes) k v, ((decodeQuery parts.params).foldl put ⟨bitcoin, a, []⟩).query.get k = some v ↔
        (k = amountKey ∧ ∃ t n, Last parts.params k t ∧ Base10.decode t 8 true = some n ∧ v = Base10.encode n 8) ∨
        ((k = labelKey ∨ k = messageKey ∨ k = rKey) ∧ Last parts.params k v) := by
    intro a k v
    rw [fold_put_get _ hsort _ (by simp [Sorted])]
    have : ((decodeQuery parts.params).get k).bind (entry k) = some v ↔ ∃ t, Last parts.params k t ∧ entry k t = some v := by
      rw [Option.bind_eq_some_iff]
      exact exists_congr fun t => and_congr_left fun _ => decodeQuery_get _ _ _
    rw [show Query.get (⟨bitcoin, a, []⟩ : BitcoinUri).query k = none from rfl, Option.or_none, this]
    unfold entry
    by_cases hk : k = amountKey
    · have hn : ¬ (k = labelKey ∨ k = messageKey ∨ k = rKey) := by rw [hk]; decide
      simp only [if_pos hk, hk, true_and] at *
      simp only [hn, false_and, or_false, if_true, Option.map_eq_some_iff]
      constructor
      · rintro ⟨t, h1, n, h2, h3⟩; exact ⟨t, n, h1, h2, h3.symm⟩
      · rintro ⟨t, n, h1, h2, h3⟩; exact ⟨t, h1, n, h2, h3.symm⟩
    · simp only [if_neg hk, hk, false_and, false_or]
      by_cases hk2 : k = labelKey ∨ k = messageKey ∨ k = rKey
      · simp [hk2]
      · simp [hk2]
  rw [hall]
  constructor
  · rintro ⟨⟨h1, h2⟩, a, rfl, ha⟩
    have hff := fold_fields (decodeQuery parts.params) ⟨bitcoin, a, []⟩
    refine ⟨?_, h1, h2, hff.1, fold_put_sorted _ _ (by simp [Sorted]), hget a⟩
    rw [hff.2]
    rcases ha with h | ⟨h1, h2, h3, h4⟩ | ⟨h1, h2, h3⟩
    · exact Or.inl h
    · exact Or.inr (Or.inl ⟨h1, (isAddress_iff _).1 h3, h4⟩)
    · exact Or.inr (Or.inr ⟨h2, a, h1, (isAddress_iff _).1 h3, rfl⟩)
  · rintro ⟨ha, h1, h2, h3, h4, h5⟩
    refine ⟨⟨h1, h2⟩, u.address, ?_, ?_⟩
    · have hff := fold_fields (decodeQuery parts.params) ⟨bitcoin, u.address, []⟩
      have hq : ((decodeQuery parts.params).foldl put ⟨bitcoin, u.address, []⟩).query = u.query := by
        refine ext (fold_put_sorted _ _ (by simp [Sorted])) h4 fun k => Option.ext fun v => ?_
        rw [hget, h5]
      revert hff hq
      generalize (decodeQuery parts.params).foldl put ⟨bitcoin, u.address, []⟩ = w
      intro hff hq
      obtain ⟨s, a, q⟩ := w
      obtain ⟨s', a', q'⟩ := u
      simp only at hff hq h3 ⊢
      rw [hff.1, hff.2, hq, h3]
    · rcases ha with h | ⟨h1, h2, h3⟩ | ⟨h1, a, h2, h3, h4⟩
      · exact Or.inl h
      · have h2' := (isAddress_iff _).2 h2
        refine Or.inr (Or.inl ⟨h1, fun h => ?_, h2', h3⟩)
        rw [h, empty_address] at h2'; cases h2'
      · subst h4
        exact Or.inr (Or.inr ⟨h2, h1, (isAddress_iff _).2 h3⟩)

/-- **C45** An object built with the setters is not equal to the one read from its own text, although neither is ordered before the other: the scheme
is compared, and only the reader sets it. -/
theorem C45_equality_counterexample (hf : urls.Faithful) (n : Nat) (hn : n < 2 ^ 64) :
    ∃ u, Reachable b urls u ∧ u.amount = some n ∧ Uri.ofText b urls (u.encoded urls) ≠ u ∧
      (Uri.ofText b urls (u.encoded urls)).encoded urls = u.encoded urls := by
  have hr : Reachable b urls (BitcoinUri.empty.setAmount n) := .setAmount n .empty hn
  refine ⟨_, hr, ((C45_setters hr).1 n hn).1, ?_, ?_⟩
  · rw [(C45_roundtrip hf hr).2]
    intro h
    have := congrArg BitcoinUri.scheme h
    exact absurd (show bitcoin = [] from this) (by decide)
  · rw [(C45_roundtrip hf hr).2]; rfl

/-- **C45** A witness address is refused as the address of an URI (as is every text with a character outside of base58). -/
theorem C45_witness_counterexample (urls : Urls) (t : Bytes) (parts : Parts) (hp : urls.parse t = some parts) (ha : parts.authority = none)
    (hw : parts.path = Radix.ascii "bc1qw508d6qejxtdg4y5r3zarvary0c5xw7kv8f3t4") : parse b urls t = none := by
  cases h : parse b urls t with
  | none => rfl
  | some u =>
    obtain ⟨-, parts', h1, -, -, -, a, -, h2⟩ := (parse_eq t u).1 h
    rw [hp] at h1; injection h1 with h1; subst h1
    rcases h2 with ⟨-, h2, -⟩ | ⟨-, -, h2, -⟩ | ⟨h2, -⟩
    · rw [hw] at h2; exact absurd h2 (by decide)
    · exact absurd (address_chars h2 48 (by rw [hw]; decide)) (by decide +kernel)
    · rw [ha] at h2; cases h2

/-! ## Not vacuous -/

instance : Countable UInt8 := Function.Injective.countable (f := UInt8.toNat) fun _ _ h => UInt8.toNat_inj.1 h

/-- Some library of URLs is as relied upon. -/
theorem faithful_exists : ∃ urls : Urls, urls.Faithful := by
  classical
  obtain ⟨f, hf⟩ := exists_injective_nat (Bytes × List (Bytes × Bytes))
  refine ⟨⟨fun t => if h : ∃ x, f x = t.length - 1 then some ⟨bitcoin, none, h.choose.1, h.choose.2, none⟩ else none,
    fun _ path params => 1 :: List.replicate (f (path, params)) 0⟩, fun _ _ => by simp, fun path params _ _ => ?_⟩
  have h : ∃ x, f x = (1 :: List.replicate (f (path, params)) (0 : UInt8)).length - 1 := ⟨(path, params), by simp⟩
  have hc : h.choose = (path, params) := hf (h.choose_spec.trans (by simp))
  show (if h : _ then _ else _) = _
  rw [dif_pos h]
  simp only [hc]

example : ∃ urls : Urls, urls.Faithful ∧ ∃ u, Reachable Sha.Build.portable urls u ∧ u.amount = some 150000000 ∧
    u.parameter labelKey = Radix.ascii "a&b=c" ∧ u.address ≠ [] ∧
    Uri.ofText Sha.Build.portable urls (u.encoded urls) = { u with scheme := bitcoin } := by
  obtain ⟨urls, hf⟩ := faithful_exists
  have h1 : Reachable Sha.Build.portable urls _ := .setAmount 150000000 .empty (by decide)
  have h2 := Reachable.setLabel (Radix.ascii "a&b=c") h1
  have h3 := Reachable.setPayment (List.replicate 20 7) 0 h2 (by decide)
  refine ⟨urls, hf, _, h3, by decide +kernel, by decide +kernel, ?_, (C45_roundtrip hf h3).2⟩
  intro h
  rcases (reachable_good h3).address with h' | h'
  · exact absurd (congrArg List.length h') (by decide +kernel)
  · rw [h, empty_address] at h'; cases h'

end Verif.Uri
