import Verif.Props.BitcoinUri

/-! # C45: validity of an URI -/

namespace Verif.Uri
open Verif

/-- **C45 (validity).** An URI constructed from a text is valid just when the text is accepted, and is otherwise the empty one; and an URI is
valid just when it differs from the empty one. -/
theorem C45_valid (b : Sha.Build) (urls : Urls) (text : Bytes) :
    ((ofText b urls text).valid = true ↔ ∃ u, parse b urls text = some u) ∧ ((ofText b urls text).valid = false → ofText b urls text = .empty) ∧
    ∀ u : BitcoinUri, u.valid = true ↔ u ≠ ⟨[], [], []⟩ := by
  have hv : ∀ u : BitcoinUri, u.valid = true ↔ u ≠ ⟨[], [], []⟩ := by
    rintro ⟨s, a, q⟩
    cases s <;> cases a <;> cases q <;> simp [BitcoinUri.valid]
  refine ⟨?_, fun h => ?_, hv⟩
  · rw [hv]
    unfold ofText
    constructor
    · intro h
      cases hp : parse b urls text with
      | none => rw [hp] at h; exact absurd rfl h
      | some u => exact ⟨u, rfl⟩
    · rintro ⟨u, hu⟩
      rw [hu]
      obtain ⟨-, parts, -, -, -, -, -, -, hs, -⟩ := (C45_accepts text u).1 hu
      intro he
      have : u.scheme = [] := by
        have : u = ⟨[], [], []⟩ := he
        rw [this]
      rw [this] at hs
      exact absurd hs (by decide)
  · have := mt (hv _).2 (by rw [h]; decide)
    exact Decidable.not_not.1 this

example : BitcoinUri.valid .empty = false ∧ (BitcoinUri.empty.setLabel [97]).valid = true := by decide

end Verif.Uri
