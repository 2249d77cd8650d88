import Verif.Lemmas.Aead
/-!
# C44: ciphers and authenticated encryption

The statements use the byte string definitions of RFC 8439 and BIP324 in `Verif/Spec/Chacha.lean`. Every statement is for any
combination of the instruction sets (`Build`).
-/
namespace Verif.Aead
open Verif.Chacha (Cipher keyWords)
open Verif.Spec.Chacha (keystreamBytes poly1305 aeadEncrypt aeadDecrypt packetSeal packetUnseal)

/-- A use of the cipher: `crypt` of a text or `stream` of a number of bytes. -/
inductive Call where
  | crypt (text : Bytes)
  | stream (size : Nat)

/-- The bytes that a call consumes: `stream` is the encryption of zeros. -/
def Call.input : Call → Bytes
  | crypt text => text
  | stream size => List.replicate size 0

/-- One call on the model. -/
def Call.run (b : Chacha.Build) (c : Cipher) : Call → Cipher × Bytes
  | crypt text => Chacha.crypt b c text text.length
  | stream size => Chacha.stream b c size

/-- A sequence of calls, and all that they wrote. -/
def runCalls (b : Chacha.Build) (c : Cipher) : List Call → Cipher × Bytes
  | [] => (c, [])
  | a :: as => ((runCalls b (a.run b c).1 as).1, (a.run b c).2 ++ (runCalls b (a.run b c).1 as).2)

theorem call_pos (b : Chacha.Build) {key nonce : Bytes} {counter p : Nat} {c : Cipher} (h : Pos key nonce counter p c) (a : Call) :
    (a.run b c).2 = Spec.Chacha.xor a.input (ks key nonce counter p a.input.length) ∧ Pos key nonce counter (p + a.input.length) (a.run b c).1 := by
  cases a with
  | crypt text => exact crypt_pos b h text
  | stream size =>
    obtain ⟨e1, e2⟩ := stream_pos b h size
    simp only [Call.input, List.length_replicate, Call.run]
    exact ⟨by rw [xor_zeros size _ (ks_length _ _ _ _ _), e1], e2⟩

theorem calls_pos (b : Chacha.Build) {key nonce : Bytes} {counter : Nat} (as : List Call) : ∀ {p : Nat} {c : Cipher}, Pos key nonce counter p c →
    (runCalls b c as).2 = Spec.Chacha.xor (as.flatMap Call.input) (ks key nonce counter p (as.flatMap Call.input).length) := by
  induction as with
  | nil => intro p c _; rfl
  | cons a as ih =>
    intro p c h
    obtain ⟨e1, e2⟩ := call_pos b h a
    simp only [runCalls, List.flatMap_cons, List.length_append]
    rw [ks_add, xor_append _ _ _ _ (by rw [ks_length]), e1, ih e2]

/-- C44: after `set_key` on a cipher in any state and `seek`, whatever the division of the text into calls, the bytes written are the
text exclusive or the RFC 8439 keystream from the block counter; `stream` is the encryption of zeros. -/
theorem C44_keystream (b : Chacha.Build) (c : Cipher) (key : Bytes) (n32 : BitVec 32) (n64 : BitVec 64) (counter : BitVec 32) (calls : List Call) :
    (runCalls b (Chacha.seek (Chacha.setKey c key) n32 n64 counter) calls).2 =
      Spec.Chacha.encrypt key (leBytes 4 n32.toNat ++ leBytes 8 n64.toNat) counter.toNat (calls.flatMap Call.input) := by
  rw [calls_pos b calls (seek_pos (setKey_pos c key).key n32 n64 counter), ks_zero]
  rfl

/-- C44: without a `seek` the nonce and the counter are zero. -/
theorem C44_keystream_initial (b : Chacha.Build) (key : Bytes) (calls : List Call) :
    (runCalls b (Chacha.construct key) calls).2 = Spec.Chacha.encrypt key (List.replicate 12 0) 0 (calls.flatMap Call.input) := by
  rw [calls_pos b calls (construct_pos key), ks_zero]
  rfl

/-- C44: the tag of a message written in any pieces is the RFC 8439 Poly1305 of their concatenation. -/
theorem C44_poly1305 (b : Poly.Build) (key : Bytes) (pieces : List Bytes) :
    Poly.flush b (pieces.foldl (Poly.write b) (Poly.construct key)) = poly1305 key pieces.flatten := by
  have gen : ∀ (ps : List Bytes) (msg : Bytes) (m : Poly.Mac), Poly.Absorbed key msg m → Poly.Absorbed key (msg ++ ps.flatten) (ps.foldl (Poly.write b) m) := by
    intro ps
    induction ps with
    | nil => intro msg m h; simpa using h
    | cons p ps ih =>
      intro msg m h
      have := ih _ _ (Poly.write_absorbed h b p)
      simpa [List.append_assoc] using this
  exact Poly.flush_spec (gen pieces [] _ (Poly.absorbed_nil key)) b

/-- C44: authenticated encryption of a text in two segments is that of the standard for their concatenation, whatever was done with
the object before. -/
theorem C44_encrypt (b : Build) (c : Cipher) (key plain1 plain2 aad : Bytes) (n32 : BitVec 32) (n64 : BitVec 64)
    (ha : aad.length < 2 ^ 64) (hp : plain1.length + plain2.length < 2 ^ 64) :
    (encrypt b (Chacha.setKey c key) plain1 plain2 aad n32 n64).2 =
      aeadEncrypt key (leBytes 4 n32.toNat ++ leBytes 8 n64.toNat) aad (plain1 ++ plain2) :=
  (encrypt_spec b (setKey_pos c key).key plain1 plain2 aad n32 n64 ha hp).1

/-- C44: decryption succeeds exactly when the standard's does, and then with its text; otherwise the text is zeros. -/
theorem C44_decrypt (b : Build) (c : Cipher) (key aad sealed : Bytes) (n32 : BitVec 32) (n64 : BitVec 64)
    (ha : aad.length < 2 ^ 64) (hs : sealed.length < 2 ^ 64) (h16 : 16 ≤ sealed.length) :
    (decrypt b (Chacha.setKey c key) aad n32 n64 sealed).2 =
      (match aeadDecrypt key (leBytes 4 n32.toNat ++ leBytes 8 n64.toNat) aad sealed with
       | some plain => (true, plain)
       | none => (false, List.replicate (sealed.length - 16) 0)) :=
  (decrypt_spec b (setKey_pos c key).key aad n32 n64 sealed ha hs h16).1

theorem sealed_length (key nonce aad plain : Bytes) : (aeadEncrypt key nonce aad plain).length = plain.length + 16 := by
  unfold aeadEncrypt
  dsimp only
  rw [List.length_append, tag_length]
  unfold Spec.Chacha.encrypt
  rw [xor_length _ _ (by simp [keystreamBytes])]

theorem unseal_seal (key nonce aad plain : Bytes) : aeadDecrypt key nonce aad (aeadEncrypt key nonce aad plain) = some plain := by
  have hl := sealed_length key nonce aad plain
  unfold aeadDecrypt
  dsimp only
  rw [hl, Nat.add_sub_cancel]
  have hc : (Spec.Chacha.encrypt key nonce 1 plain).length = plain.length := by
    unfold Spec.Chacha.encrypt
    exact xor_length _ _ (by simp [keystreamBytes])
  unfold aeadEncrypt
  dsimp only
  rw [List.take_append_of_le_length (by omega), List.take_of_length_le (by omega), List.drop_append, List.drop_of_length_le (by omega), hc, Nat.sub_self, List.drop_zero, List.nil_append, if_pos rfl]
  congr 1
  unfold Spec.Chacha.encrypt
  rw [xor_length _ _ (by simp [keystreamBytes])]
  exact xor_xor _ _ (by simp [keystreamBytes])

/-- C44: what one object seals another with the same key, nonce and associated data opens, on any two builds. -/
theorem C44_round_trip (b b' : Build) (c c' : Cipher) (key plain1 plain2 aad : Bytes) (n32 : BitVec 32) (n64 : BitVec 64)
    (ha : aad.length < 2 ^ 64) (hp : plain1.length + plain2.length + 16 < 2 ^ 64) :
    (decrypt b' (Chacha.setKey c' key) aad n32 n64 (encrypt b (Chacha.setKey c key) plain1 plain2 aad n32 n64).2).2 = (true, plain1 ++ plain2) := by
  rw [C44_encrypt b c key plain1 plain2 aad n32 n64 ha (by omega)]
  have hl := sealed_length key (leBytes 4 n32.toNat ++ leBytes 8 n64.toNat) aad (plain1 ++ plain2)
  rw [List.length_append] at hl
  rw [C44_decrypt b' c' key aad _ n32 n64 ha (by omega) (by omega), unseal_seal]

/-! ### BIP324 -/

/-- A use of the packet cipher. -/
inductive Packet where
  | seal (plain1 plain2 aad : Bytes)
  | unseal (aad sealed : Bytes)

/-- The sizes that the interface requires. -/
def Packet.Sized : Packet → Prop
  | «seal» plain1 plain2 aad => aad.length < 2 ^ 64 ∧ plain1.length + plain2.length < 2 ^ 64
  | «unseal» aad sealed => aad.length < 2 ^ 64 ∧ sealed.length < 2 ^ 64 ∧ 16 ≤ sealed.length

/-- The result: success and the bytes. -/
def Packet.run (b : Build) (s : Packets) : Packet → Packets × Bool × Bytes
  | «seal» plain1 plain2 aad => ((Packets.encrypt b s plain1 plain2 aad).1, true, (Packets.encrypt b s plain1 plain2 aad).2)
  | «unseal» aad sealed => Packets.decrypt b s aad sealed

/-- The results of a history. -/
def runPackets (b : Build) (s : Packets) : List Packet → List (Bool × Bytes)
  | [] => []
  | a :: as => (a.run b s).2 :: runPackets b (a.run b s).1 as

/-- What BIP324 requires of packet `n`. -/
def Packet.required (key : Bytes) (interval n : Nat) : Packet → Bool × Bytes
  | «seal» plain1 plain2 aad => (true, packetSeal key interval n aad (plain1 ++ plain2))
  | «unseal» aad sealed =>
    match packetUnseal key interval n aad sealed with
    | some plain => (true, plain)
    | none => (false, List.replicate (sealed.length - 16) 0)

theorem packet_before (b : Build) {key : Bytes} {interval : BitVec 32} {n : Nat} {s : Packets} (h : Packets.Before key interval n s) (a : Packet) (ha : a.Sized) :
    (a.run b s).2 = a.required key (effective interval) n ∧ Packets.Before key interval (n + 1) (a.run b s).1 := by
  cases a with
  | «seal» p1 p2 aad =>
    unfold Packet.Sized at ha
    obtain ⟨e1, e2⟩ := packets_encrypt b h p1 p2 aad ha.1 ha.2
    unfold Packet.run Packet.required
    dsimp only
    exact ⟨by rw [e1], e2⟩
  | «unseal» aad sealed =>
    unfold Packet.Sized at ha
    obtain ⟨e1, e2⟩ := packets_decrypt b h aad sealed ha.1 ha.2.1 ha.2.2
    unfold Packet.run Packet.required
    dsimp only
    refine ⟨?_, e2⟩
    rw [e1]
    generalize packetUnseal key (effective interval) n aad sealed = o
    cases o <;> rfl

/-- C44: through any history of sealing and opening, whether or not the openings succeed, the n-th operation is that of BIP324 for
packet n: the key is replaced after each interval, the nonce is (n mod interval, n div interval). -/
theorem C44_packets (b : Build) (key : Bytes) (interval : BitVec 32) (hi : interval ≠ 0) (packets : List Packet) (hs : ∀ a ∈ packets, a.Sized) :
    runPackets b (Packets.construct key interval) packets =
      packets.mapIdx (fun n a => a.required key interval.toNat n) := by
  have he : effective interval = interval.toNat := by unfold effective; rw [if_neg hi]
  have gen : ∀ (as : List Packet) (n : Nat) (s : Packets), Packets.Before key interval n s → (∀ a ∈ as, a.Sized) →
      runPackets b s as = as.mapIdx (fun i a => a.required key interval.toNat (n + i)) := by
    intro as
    induction as with
    | nil => intro n s _ _; rfl
    | cons a as ih =>
      intro n s h hs
      obtain ⟨e1, e2⟩ := packet_before b h a (hs a (by simp))
      rw [runPackets, List.mapIdx_cons, e1, he, ih (n + 1) _ e2 (fun a h => hs a (by simp [h]))]
      simp only [Nat.add_zero, Nat.add_right_comm, Nat.add_assoc]
  have := gen packets 0 (Packets.construct key interval) ⟨rfl, by simp [Packets.construct, Spec.Chacha.packetKey, Chacha.construct, Chacha.setKey], by simp [Packets.construct], by simp [Packets.construct]⟩ hs
  simpa using this

/-- C44: two peers with the same key stay in step: the receiver opens each packet as sent. -/
theorem C44_session (b b' : Build) (key : Bytes) (interval : BitVec 32) (hi : interval ≠ 0) (sent : List (Bytes × Bytes))
    (hs : ∀ a ∈ sent, a.1.length + 16 < 2 ^ 64 ∧ a.2.length < 2 ^ 64) :
    runPackets b' (Packets.construct key interval)
      (List.zipWith (fun a (s : Bool × Bytes) => Packet.unseal a.2 s.2) sent
        (runPackets b (Packets.construct key interval) (sent.map fun a => Packet.seal a.1 [] a.2))) =
      sent.map fun a => (true, a.1) := by
  have h1 : ∀ a ∈ sent.map fun a => Packet.seal a.1 [] a.2, a.Sized := by
    intro a ha
    obtain ⟨x, hx, rfl⟩ := List.mem_map.1 ha
    have := hs x hx
    unfold Packet.Sized
    exact ⟨this.2, by rw [List.length_nil]; omega⟩
  have h2 : ∀ a ∈ sent.mapIdx fun n a => Packet.unseal a.2 (packetSeal key interval.toNat n a.2 (a.1 ++ [])), a.Sized := by
    intro a ha
    obtain ⟨i, hi', rfl⟩ := List.mem_mapIdx.1 ha
    have := hs _ (List.getElem_mem hi')
    have hl : (packetSeal key interval.toNat i sent[i].2 (sent[i].1 ++ [])).length = sent[i].1.length + 16 := by
      unfold packetSeal
      rw [sealed_length, List.append_nil]
    unfold Packet.Sized
    dsimp only
    rw [hl]
    exact ⟨this.2, this.1, by omega⟩
  have hz : List.zipWith (fun a (s : Bool × Bytes) => Packet.unseal a.2 s.2) sent
      ((sent.map fun a => Packet.seal a.1 [] a.2).mapIdx fun n a => a.required key interval.toNat n) =
      sent.mapIdx fun n a => Packet.unseal a.2 (packetSeal key interval.toNat n a.2 (a.1 ++ [])) := by
    refine List.ext_getElem (by simp) fun i h1 h2 => ?_
    rw [List.getElem_zipWith, List.getElem_mapIdx, List.getElem_map, List.getElem_mapIdx]
    unfold Packet.required
    dsimp only
  have hu : ∀ n (a : Bytes × Bytes), Packet.required key interval.toNat n (Packet.unseal a.2 (packetSeal key interval.toNat n a.2 (a.1 ++ []))) = (true, a.1) := by
    intro n a
    unfold Packet.required
    dsimp only
    have : packetUnseal key interval.toNat n a.2 (packetSeal key interval.toNat n a.2 (a.1 ++ [])) = some a.1 := by
      unfold packetUnseal packetSeal
      rw [unseal_seal, List.append_nil]
    rw [this]
  rw [C44_packets b key interval hi _ h1, hz, C44_packets b' key interval hi _ h2]
  refine List.ext_getElem (by simp) fun i h1 h2 => ?_
  rw [List.getElem_mapIdx, List.getElem_mapIdx, List.getElem_map, hu]

/-- C44: the forward secure cipher of chunks, over any history of chunks. -/
theorem C44_chunks (b : Build) (key : Bytes) (interval : BitVec 32) (hi : interval ≠ 0) (chunks : List Bytes) :
    (chunks.foldl (fun (s : Chunks × List Bytes) x => ((Chunks.crypt b s.1 x).1, s.2 ++ [(Chunks.crypt b s.1 x).2])) (Chunks.construct key interval, [])).2 =
      (chunks.foldl (fun (s : Spec.Chacha.Fs × List Bytes) x => ((s.1.crypt interval.toNat x).1, s.2 ++ [(s.1.crypt interval.toNat x).2])) (⟨key, 0, 0⟩, [])).2 := by
  have he : effective interval = interval.toNat := by unfold effective; rw [if_neg hi]
  have gen : ∀ (as : List Bytes) (s : Chunks) (f : Spec.Chacha.Fs) (acc : List Bytes), Chunks.Before interval f s →
      (as.foldl (fun (s : Chunks × List Bytes) x => ((Chunks.crypt b s.1 x).1, s.2 ++ [(Chunks.crypt b s.1 x).2])) (s, acc)).2 =
      (as.foldl (fun (s : Spec.Chacha.Fs × List Bytes) x => ((s.1.crypt interval.toNat x).1, s.2 ++ [(s.1.crypt interval.toNat x).2])) (f, acc)).2 := by
    intro as
    induction as with
    | nil => intro s f acc _; rfl
    | cons a as ih =>
      intro s f acc h
      obtain ⟨e1, e2⟩ := chunks_crypt b h a
      rw [he] at e1 e2
      simp only [List.foldl_cons, e1]
      exact ih _ _ _ e2
  refine gen chunks _ _ _ ⟨rfl, ?_, ?_, ?_⟩
  · show Pos key (leBytes 4 0 ++ leBytes 8 (0 / _)) 0 0 _
    rw [Nat.zero_div]
    exact construct_pos key
  · simp [Chunks.construct]
  · simp [Chunks.construct]

/-! ### Instances: the vectors of the standard -/

/-- RFC 8439 2.3.2. -/
example : Spec.Chacha.block ((List.range 32).map fun i => UInt8.ofNat i) 1 [0, 0, 0, 9, 0, 0, 0, 0x4a, 0, 0, 0, 0] =
    [0x10, 0xf1, 0xe7, 0xe4, 0xd1, 0x3b, 0x59, 0x15, 0x50, 0x0f, 0xdd, 0x1f, 0xa3, 0x20, 0x71, 0xc4,
     0xc7, 0xd1, 0xf4, 0xc7, 0x33, 0xc0, 0x68, 0x03, 0x04, 0x22, 0xaa, 0x9a, 0xc3, 0xd4, 0x6c, 0x4e,
     0xd2, 0x82, 0x64, 0x46, 0x07, 0x9f, 0xaa, 0x09, 0x14, 0xc2, 0xd7, 0x05, 0xd9, 0x8b, 0x02, 0xa2,
     0xb5, 0x12, 0x9c, 0xd1, 0xde, 0x16, 0x4e, 0xb9, 0xcb, 0xd0, 0x83, 0xe8, 0xa2, 0x50, 0x3c, 0x4e] := by
  decide +kernel

/-- RFC 8439 2.5.2: "Cryptographic Forum Research Group". -/
example : poly1305
    [0x85, 0xd6, 0xbe, 0x78, 0x57, 0x55, 0x6d, 0x33, 0x7f, 0x44, 0x52, 0xfe, 0x42, 0xd5, 0x06, 0xa8,
     0x01, 0x03, 0x80, 0x8a, 0xfb, 0x0d, 0xb2, 0xfd, 0x4a, 0xbf, 0xf6, 0xaf, 0x41, 0x49, 0xf5, 0x1b]
    [0x43, 0x72, 0x79, 0x70, 0x74, 0x6f, 0x67, 0x72, 0x61, 0x70, 0x68, 0x69, 0x63, 0x20, 0x46, 0x6f, 0x72, 0x75,
     0x6d, 0x20, 0x52, 0x65, 0x73, 0x65, 0x61, 0x72, 0x63, 0x68, 0x20, 0x47, 0x72, 0x6f, 0x75, 0x70] =
    [0xa8, 0x06, 0x1d, 0xc1, 0x30, 0x51, 0x36, 0xc6, 0xc2, 0x2b, 0x8b, 0xaf, 0x0c, 0x01, 0x27, 0xa9] := by
  unfold poly1305
  rw [Spec.Chacha.chunks, if_neg (by simp), List.drop, List.drop, List.drop, List.drop, List.drop, List.drop, List.drop, List.drop,
    List.drop, List.drop, List.drop, List.drop, List.drop, List.drop, List.drop, List.drop, List.drop,
    Spec.Chacha.chunks, if_neg (by simp), List.drop, List.drop, List.drop, List.drop, List.drop, List.drop, List.drop, List.drop,
    List.drop, List.drop, List.drop, List.drop, List.drop, List.drop, List.drop, List.drop, List.drop,
    Spec.Chacha.chunks, if_neg (by simp), List.drop, List.drop, List.drop, Spec.Chacha.chunks, if_pos (by rfl)]
  decide +kernel

/-- A history of two intervals. -/
example : ∀ a ∈ [Packet.seal [1, 2] [3] [], .seal [] [] [9], .unseal [] (List.replicate 20 0)], a.Sized := by
  simp [Packet.Sized]

end Verif.Aead
