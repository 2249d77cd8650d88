import Verif.Props.Network

/-! # C86: hosts, mapped addresses and the forms of an endpoint -/

namespace Verif.Network
open Verif Verif.Network.Spec
open Verif.Radix (ascii)
open Verif.Config (word serialize Framed)
open Verif.ScriptText (toLower isWs)

/-- **C86 (mapped).** An IPv6 address is taken for an IPv4 address just when it is `::ffff:a.b.c.d`, and then for that one; any other is kept. -/
theorem C86_mapped (n : BitVec 128) : (∀ m : UInt32, denormalize (.v6 n) = .v4 m ↔ n.toNat = 0xffff * 2 ^ 32 + m.toNat) ∧
    (∀ k, denormalize (.v6 n) = .v6 k ↔ k = n ∧ ∀ m : UInt32, n.toNat ≠ 0xffff * 2 ^ 32 + m.toNat) ∧ ∀ m, denormalize (.v4 m) = .v4 m := by
  have hmap : isMapped n = true ↔ n.toNat / 2 ^ 32 = 0xffff := by unfold isMapped; simp
  refine ⟨fun m => ?_, fun k => ?_, fun m => rfl⟩
  · unfold denormalize
    dsimp only
    have hm := m.toNat_lt
    by_cases h : isMapped n = true
    · rw [if_pos h]
      rw [hmap] at h
      constructor
      · intro he
        have := congrArg UInt32.toNat (Address.v4.inj he)
        rw [UInt32.toNat_ofNat'] at this
        omega
      · intro he
        congr 1
        apply UInt32.toNat_inj.1
        rw [UInt32.toNat_ofNat']
        omega
    · rw [if_neg h]
      rw [hmap] at h
      exact ⟨fun he => (by cases he), fun he => by omega⟩
  · unfold denormalize
    dsimp only
    by_cases h : isMapped n = true
    · rw [if_pos h]
      rw [hmap] at h
      refine ⟨fun he => (by cases he), fun he => absurd ?_ (he.2 (UInt32.ofNat (n.toNat % 2 ^ 32)))⟩
      rw [UInt32.toNat_ofNat']
      omega
    · rw [if_neg h]
      rw [hmap] at h
      refine ⟨fun he => ⟨(Address.v6.inj he).symm, fun m => ?_⟩, fun he => by rw [he.1]⟩
      have hm := m.toNat_lt
      omega

/-- **C86 (host).** A text is read as a host just when it is the text of an address, with brackets if it has colons, and nothing else. -/
theorem C86_host (A : Asio) (s : Bytes) (ip : Address) : parseHost A s = some ip ↔ Names A s ip := by
  unfold parseHost
  constructor
  · intro h
    split at h
    · rename_i host hl
      obtain ⟨h1, h2⟩ := literal_bwd hl
      rw [List.append_nil] at h1
      dsimp only at h1 h2
      rw [h1]
      exact (make_iff A h2 ip).1 h
    · cases h
  · intro h
    have hh := names_host h
    have hl := literal_fwd (r := []) hh (fun c hc => by simp at hc)
    rw [List.append_nil] at hl
    rw [hl]
    exact (make_iff A hh ip).2 h

/-- **C86 (host text).** The text of an address is read as the address it stands for, mapped addresses as IPv4 addresses. -/
theorem C86_host_roundtrip (A : Asio) (hA : Lawful A) (ip : Address) (hplain : ∀ n, denormalize ip = .v6 n → Plain A n) :
    parseHost A (toLiteral A ip) = some (denormalize ip) := (C86_host A _ _).2 (text_names hA ip hplain).1

theorem lower_digit : ∀ c : UInt8, Base10.isDigit c = true → (if 65 ≤ c && c ≤ 90 then c + 32 else c) = c := by apply Der.byte_forall; decide +kernel

theorem lower_serialize (n : Nat) : toLower (serialize n) = serialize n := by
  have : toLower (serialize n) = (serialize n).map id := List.map_congr_left fun c hc => lower_digit c (digit_dec n c hc)
  rw [this, List.map_id]

theorem lower_name {h : Bytes} (hh : Name h) : Name (toLower h) := by
  refine ⟨by simpa [toLower] using hh.1, fun c hc => ?_⟩
  unfold toLower at hc
  obtain ⟨x, hx, rfl⟩ := List.mem_map.1 hc
  have := hh.2 x hx
  revert this
  exact Der.byte_forall (p := fun x => x ∉ ascii ":?/\\" → (if 65 ≤ x && x ≤ 90 then x + 32 else x) ∉ ascii ":?/\\") (by decide +kernel) x

theorem lower_ws {h : Bytes} (hw : ∀ c ∈ h, isWs c = false) : ∀ c ∈ toLower h, isWs c = false := by
  intro c hc
  unfold toLower at hc
  obtain ⟨x, hx, rfl⟩ := List.mem_map.1 hc
  have := hw x hx
  revert this
  exact Der.byte_forall (p := fun x => isWs x = false → isWs (if 65 ≤ x && x ≤ 90 then x + 32 else x) = false) (by decide +kernel) x

/-- **C86 (lower case).** The lower case text of an endpoint is read as the endpoint with the lower case host and its port, or the default if it has none. -/
theorem C86_lower (e : Endpoint) (hh : Name e.host) (hw : ∀ c ∈ e.host, isWs c = false) (hp : e.port < 2 ^ 16) (default : Nat) (hd : default < 2 ^ 16)
    (s : Bytes) (hs : Framed s (e.lower default)) :
    Endpoint.read s = some ⟨e.host.map fun c => if 65 ≤ c && c ≤ 90 then c + 32 else c, if e.port = 0 then default else e.port⟩ := by
  have he : e.lower default = Endpoint.text ⟨toLower e.host, e.port⟩ default := by
    unfold Endpoint.lower Endpoint.text
    dsimp only
    generalize (if e.port = 0 then default else e.port) = v
    by_cases hv : v = 0
    · rw [if_pos hv, if_pos hv]
    · rw [if_neg hv, if_neg hv, ← lower_serialize v]
      have : ∀ a b c : Bytes, toLower (a ++ b ++ c) = toLower a ++ toLower b ++ toLower c := fun a b c => by simp [toLower]
      rw [this, lower_serialize, lower_serialize, brk.2.2.1]
      rfl
  rw [he] at hs
  exact (C86_endpoint_roundtrip ⟨toLower e.host, e.port⟩ (.inr (lower_name hh)) (lower_ws hw) hp default hd s).2 hs

/-- **C86 (local).** Only the host `*` is replaced, by `localhost`; it can be read again and the port is kept. -/
theorem C86_local (e : Endpoint) : e.local.port = e.port ∧ (e.host = [42] → e.local.host = ascii "localhost" ∧ Name e.local.host) ∧ (e.host ≠ [42] → e.local = e) := by
  have : ascii "*" = [42] := by decide
  unfold Endpoint.local
  rw [this]
  refine ⟨rfl, fun h => ?_, fun h => ?_⟩
  · rw [if_pos h]
    refine ⟨rfl, ?_⟩
    show Name (ascii "localhost")
    exact ⟨by decide, by decide⟩
  · rw [if_neg h]

example : denormalize (.v6 0xffff7f000001#128) = .v4 0x7f000001 := ((C86_mapped _).1 _).2 (by decide)
example : denormalize (.v6 1#128) = .v6 1#128 := by decide
/-- A host with upper case letters, and the default port. -/
example : Endpoint.read (Endpoint.lower ⟨ascii "A.b", 0⟩ 80) = some ⟨ascii "a.b", 80⟩ :=
  C86_lower ⟨ascii "A.b", 0⟩ ⟨by decide, by decide⟩ (by decide) (by decide) 80 (by decide) (Endpoint.lower ⟨ascii "A.b", 0⟩ 80) (.self _)
example : Endpoint.local ⟨[42], 7⟩ = ⟨ascii "localhost", 7⟩ := by decide

end Verif.Network
