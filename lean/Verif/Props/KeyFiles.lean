import Verif.Props.OpCert
import Verif.Props.Kes
import Verif.Props.Hex

/-! # Key files of stake pool keys (C72) -/

namespace Cardano.Pool

open Cardano Cardano.Util

/-- The disk takes the whole file. -/
def Fine (dk : Disk) (content : Bytes) : Prop := dk.openable = true ∧ content.length ≤ dk.space

theorem saveKey_fine (dk : Disk) (old : Bytes) (t d : String) (key : Bytes)
    (h : Fine dk (specEnvelope (ascii t) (ascii d) (Hex.encode (Cbor.enc (.bstr key))))) :
    saveKey dk old t d key = (specEnvelope (ascii t) (ascii d) (Hex.encode (Cbor.enc (.bstr key))), .ok ()) :=
  (C18_envelope_partial dk old _ _ _).2.1 h.1 h.2

theorem hex_append : ∀ a b : Bytes, Hex.encode (a ++ b) = Hex.encode a ++ Hex.encode b := by
  intro a
  induction a with
  | nil => intro b; rfl
  | cons x a ih => intro b; simp [Hex.encode, ih]

/-- **C72** What the files contain: the node's envelope with the type and description of the
key and, in hexadecimal, the CBOR byte string of the key (`5820` and 32 bytes, `5840` and 64
bytes, `590260` and 608 bytes for a KES signing key). -/
theorem C72_content (dk : Disk) (old k32 k64 : Bytes) (x : Bip32.Prv) (kes : Kes.Key) (h32 : k32.length = 32) (h64 : k64.length = 64)
    (hx : x.key.length = 64) (hk : 608 ≤ kes.prv.length) (ho : dk.openable = true) (hs : 2000 ≤ dk.space) :
    saveVkey dk old k32 = (specEnvelope (ascii "StakePoolVerificationKey_ed25519") (ascii "Stake Pool Operator Verification Key")
      (ascii "5820" ++ Hex.encode k32), .ok ()) ∧
    saveSkey dk old k32 = (specEnvelope (ascii "StakePoolSigningKey_ed25519") (ascii "Stake Pool Operator Signing Key")
      (ascii "5820" ++ Hex.encode k32), .ok ()) ∧
    saveXskey dk old x = (specEnvelope (ascii "StakePoolExtendedSigningKey_ed25519_bip32") (ascii "Stake Pool Operator Signing Key")
      (ascii "5840" ++ Hex.encode x.key), .ok ()) ∧
    saveVrfVkey dk old k32 = (specEnvelope (ascii "VrfVerificationKey_PraosVRF") (ascii "VRF Verification Key")
      (ascii "5820" ++ Hex.encode k32), .ok ()) ∧
    saveVrfSkey dk old k64 = (specEnvelope (ascii "VrfSigningKey_PraosVRF") (ascii "VRF Signing Key")
      (ascii "5840" ++ Hex.encode k64), .ok ()) ∧
    saveKesVkey dk old k32 = (specEnvelope (ascii "KesVerificationKey_ed25519_kes_2^6") (ascii "KES Verification Key")
      (ascii "5820" ++ Hex.encode k32), .ok ()) ∧
    saveKesSkey dk old kes = (specEnvelope (ascii "KesSigningKey_ed25519_kes_2^6") (ascii "KES Signing Key")
      (ascii "590260" ++ Hex.encode (kes.prv.take 608)), .ok ()) := by
  have hexlen : ∀ b : Bytes, (Hex.encode b).length = 2 * b.length := by
    intro b
    induction b with
    | nil => rfl
    | cons x b ih => simp [Hex.encode, Hex.byteChars, ih]; omega
  have e32 : ∀ b : Bytes, b.length = 32 → Hex.encode (Cbor.enc (.bstr b)) = ascii "5820" ++ Hex.encode b := by
    intro b hb
    rw [bstr32 hb, hex_append]
    have : Hex.encode [0x58, 0x20] = ascii "5820" := by decide +kernel
    rw [this]
  have e64 : ∀ b : Bytes, b.length = 64 → Hex.encode (Cbor.enc (.bstr b)) = ascii "5840" ++ Hex.encode b := by
    intro b hb
    rw [bstr64 hb, hex_append]
    have : Hex.encode [0x58, 0x40] = ascii "5840" := by decide +kernel
    rw [this]
  have e608 : ∀ b : Bytes, b.length = 608 → Hex.encode (Cbor.enc (.bstr b)) = ascii "590260" ++ Hex.encode b := by
    intro b hb
    unfold Cbor.enc
    rw [hb, hex_append]
    have : Hex.encode (Cbor.encHeader 2 608) = ascii "590260" := by decide +kernel
    rw [this]
  have fine : ∀ (t d : String) (b : Bytes), (ascii t).length ≤ 60 → (ascii d).length ≤ 60 → b.length ≤ 608 →
      Fine dk (specEnvelope (ascii t) (ascii d) (Hex.encode (Cbor.enc (.bstr b)))) := by
    intro t d b ht hd hb
    refine ⟨ho, ?_⟩
    have l1 : (ascii "{\n    \"type\": \"").length = 15 := by decide +kernel
    have l2 : (ascii "\",\n    \"description\": \"").length = 23 := by decide +kernel
    have l3 : (ascii "\",\n    \"cborHex\": \"").length = 19 := by decide +kernel
    have l4 : (ascii "\"\n}").length = 3 := by decide +kernel
    have l5 : (Cbor.enc (.bstr b)).length ≤ b.length + 9 := by
      unfold Cbor.enc
      rw [List.length_append, Cbor.C47_shortest_header]
      split <;> (try split) <;> (try split) <;> (try split) <;> omega
    simp only [specEnvelope, List.length_append, hexlen, l1, l2, l3, l4]
    omega
  have hk' : (kes.prv.take 608).length = 608 := by simp; omega
  have hks : Kes.keySize 6 = 608 := by decide
  refine ⟨?_, ?_, ?_, ?_, ?_, ?_, ?_⟩
  · unfold saveVkey; rw [saveKey_fine _ _ _ _ _ (fine _ _ _ (by decide +kernel) (by decide +kernel) (by omega)), e32 _ h32]
  · unfold saveSkey; rw [saveKey_fine _ _ _ _ _ (fine _ _ _ (by decide +kernel) (by decide +kernel) (by omega)), e32 _ h32]
  · unfold saveXskey; rw [saveKey_fine _ _ _ _ _ (fine _ _ _ (by decide +kernel) (by decide +kernel) (by omega)), e64 _ hx]
  · unfold saveVrfVkey; rw [saveKey_fine _ _ _ _ _ (fine _ _ _ (by decide +kernel) (by decide +kernel) (by omega)), e32 _ h32]
  · unfold saveVrfSkey; rw [saveKey_fine _ _ _ _ _ (fine _ _ _ (by decide +kernel) (by decide +kernel) (by omega)), e64 _ h64]
  · unfold saveKesVkey; rw [saveKey_fine _ _ _ _ _ (fine _ _ _ (by decide +kernel) (by decide +kernel) (by omega)), e32 _ h32]
  · unfold saveKesSkey; rw [hks, saveKey_fine _ _ _ _ _ (fine _ _ _ (by decide +kernel) (by decide +kernel) (by omega)), e608 _ hk']

/-- **C72** A file determines the bytes stored in it: two keys whose files have the same content
are equal (any envelope strings, any keys). -/
theorem C72_recoverable (dk dk' : Disk) (old old' : Bytes) (t d : String) (a b : Bytes) (ha : a.length < 2 ^ 64) (hb : b.length < 2 ^ 64)
    (fa : Fine dk (specEnvelope (ascii t) (ascii d) (Hex.encode (Cbor.enc (.bstr a)))))
    (fb : Fine dk' (specEnvelope (ascii t) (ascii d) (Hex.encode (Cbor.enc (.bstr b)))))
    (h : (saveKey dk old t d a).1 = (saveKey dk' old' t d b).1) : a = b := by
  rw [saveKey_fine _ _ _ _ _ fa, saveKey_fine _ _ _ _ _ fb] at h
  simp only [specEnvelope, List.append_assoc] at h
  have h' := List.append_cancel_right (List.append_cancel_left (List.append_cancel_left (List.append_cancel_left
    (List.append_cancel_left (List.append_cancel_left h)))))
  have hd := congrArg Hex.decode h'
  rw [(Hex.C01_hex_roundtrip _).1, (Hex.C01_hex_roundtrip _).1] at hd
  injection hd with hd
  have := (Cbor.C47_unique_decodable (.bstr a) (.bstr b) (.bstr ha) (.bstr hb)).2.1 hd
  injection this

/-- **C72 fails** for extended cold keys: the file holds only the 64 key bytes; keys that differ
in their chain code have the same file, and no child key can be derived from what was saved. -/
theorem C72_extended_chain_code_lost (dk : Disk) (old key cc cc' : Bytes) :
    saveXskey dk old ⟨key, cc⟩ = saveXskey dk old ⟨key, cc'⟩ := rfl

/-! ### KES signing key files

The file holds the 608 key bytes; the four bytes with the period are left out. -/

section
open Cardano.Kes

/-- Updating in "period 0" only moves the second 32 bytes of the key to the front and erases
them. -/
theorem update_zero (C : SigHash) : ∀ (d : Nat) (a b rest : Bytes), d < 31 → a.length = 32 → b.length = 32 →
    keySize (d + 1) ≤ 64 + rest.length →
    updateBuffer C (d + 1) (a ++ (b ++ rest)) 0 = (b ++ (zeros32 ++ rest), .ok ()) := by
  intro d
  induction d with
  | zero =>
    intro a b rest _ ha hb hl
    have h1 : first (a ++ (b ++ rest)) (keySize 0 + 32) = .ok (a ++ b) := by
      rw [← List.append_assoc]; exact first_append _ (by simp [ha, hb, keySize])
    have h2 : keygenBuffer C 0 (a ++ b) none = .ok (b ++ zeros32, none, C.pub b) := by
      unfold keygenBuffer
      rw [if_neg (by simp [ha, hb, keySize])]
      have e1 : (a ++ b).drop (keySize 0) = b := by
        rw [show keySize 0 = a.length by simp [keySize, ha]]; exact List.drop_left
      rw [e1]
      have e2 : writeAt (a ++ b) (keySize 0) zeros32 = .ok (a ++ zeros32) := by
        have := writeAt_mid (a := a) (b := b) (c := []) (data := zeros32) (by simp [zeros32, hb]) (keySize 0) (by simp [keySize, ha])
        simpa using this
      rw [e2]
      simp only [Out.ok_bind]
      have e3 : writeAt (a ++ zeros32) 0 b = .ok (b ++ zeros32) := by
        have := writeAt_mid (a := []) (b := a) (c := zeros32) (data := b) (by rw [ha, hb]) 0 rfl
        simpa using this
      rw [e3]
      rfl
    unfold updateBuffer
    have ht : (0 + 1) % 2 ^ 32 ≠ total (0 + 1) := by decide
    simp only [if_neg ht, if_neg (show ¬ (0 + 1) % 2 ^ 32 < 2 ^ 0 by decide), h1, h2]
    have e4 : (a ++ (b ++ rest)).drop (keySize 0 + 32) = rest := by
      rw [← List.append_assoc]; exact List.drop_left' (by simp [ha, hb, keySize])
    rw [e4, List.append_assoc, if_pos trivial]
  | succ d ih =>
    intro a b rest hd ha hb hl
    have hks : keySize (d + 1 + 1) = keySize (d + 1) + 96 := keySize_succ (d + 1)
    have hks0 : 128 ≤ keySize (d + 1) := by unfold keySize; omega
    have h2d : 2 ≤ 2 ^ (d + 1) := by
      have : 2 ^ 1 ≤ 2 ^ (d + 1) := Nat.pow_le_pow_right (by omega) (by omega)
      omega
    obtain ⟨r1, r2, hr, hr1⟩ : ∃ r1 r2, rest = r1 ++ r2 ∧ r1.length = keySize (d + 1) - 64 :=
      ⟨rest.take (keySize (d + 1) - 64), rest.drop (keySize (d + 1) - 64), (List.take_append_drop _ _).symm,
        by rw [List.length_take]; omega⟩
    subst hr
    have h1 : first (a ++ (b ++ (r1 ++ r2))) (keySize (d + 1)) = .ok (a ++ (b ++ r1)) := by
      have := first_append (a := a ++ (b ++ r1)) (b := r2) (keySize (d + 1)) (by simp [ha, hb, hr1]; omega)
      simpa using this
    have h2 := ih a b r1 (by omega) ha hb (by omega)
    rw [updateBuffer]
    have e1 : (0 + 1) % 2 ^ 32 = 1 := by decide
    have hp : total (d + 1 + 1) = 2 ^ (d + 1) * 2 := Nat.pow_succ 2 (d + 1)
    simp only [e1, if_neg (show ¬ (1 = total (d + 1 + 1)) by omega), if_pos (show 1 < 2 ^ (d + 1) by omega), h1, h2]
    have e4 : (a ++ (b ++ (r1 ++ r2))).drop (keySize (d + 1)) = r2 := by
      have : a ++ (b ++ (r1 ++ r2)) = (a ++ (b ++ r1)) ++ r2 := by simp
      rw [this]; exact List.drop_left' (by simp [ha, hb, hr1]; omega)
    rw [e4]
    simp

/-- The first 64 bytes of a signature are made with the first 32 bytes of the key. -/
theorem sign_front (C : SigHash) : ∀ (d : Nat) (a rest msg : Bytes), a.length = 32 →
    (d = 0 → rest = []) → keySize d ≤ 32 + rest.length →
    ∃ sig, signFromBuffer C d (a ++ rest) msg = .ok sig ∧ sig.take 64 = C.sign a msg := by
  intro d
  induction d with
  | zero =>
    intro a rest msg ha h0 _
    rw [h0 rfl, List.append_nil]
    exact ⟨_, by simp [signFromBuffer, ha], List.take_of_length_le (by rw [C.sign_length])⟩
  | succ d ih =>
    intro a rest msg ha _ hl
    have hks : keySize (d + 1) = keySize d + 96 := keySize_succ d
    have hks0 : 32 ≤ keySize d := by unfold keySize; omega
    obtain ⟨r1, r2, hr, hr1⟩ : ∃ r1 r2, rest = r1 ++ r2 ∧ r1.length = keySize d - 32 :=
      ⟨rest.take (keySize d - 32), rest.drop (keySize d - 32), (List.take_append_drop _ _).symm,
        by rw [List.length_take]; omega⟩
    subst hr
    obtain ⟨sg, hsg, hsg2⟩ := ih a r1 msg ha (by
      intro h; subst h; simp [keySize] at hr1; exact hr1) (by omega)
    have h1 : first (a ++ (r1 ++ r2)) (keySize d) = .ok (a ++ r1) := by
      rw [← List.append_assoc]; exact first_append _ (by simp [ha, hr1]; omega)
    have hlen : sg.length ≥ 64 := by
      have := congrArg List.length hsg2
      rw [List.length_take, C.sign_length] at this
      omega
    simp only [List.length_append] at hl
    refine ⟨sg ++ ((a ++ (r1 ++ r2)).drop (keySize (d + 1) - 64)).take 32 ++
      ((a ++ (r1 ++ r2)).drop (keySize (d + 1) - 64 + 32)).take 32, ?_, ?_⟩
    · rw [signFromBuffer, h1]
      simp only [Out.ok_bind, hsg]
      unfold slice
      rw [if_pos (by simp only [List.length_append]; omega)]
      simp only [Out.ok_bind]
      rw [if_pos (by simp only [List.length_append]; omega)]
      rfl
    · rw [List.append_assoc, List.take_append_of_le_length hlen, hsg2]

/-- In an odd period the second 32 bytes of the key are erased. -/
theorem layout_odd (C : SigHash) : ∀ (d : Nat) (seed : Bytes) (t : Nat), seed.length = 32 → t < 2 ^ (d + 1) → t % 2 = 1 →
    ∃ a rest, a.length = 32 ∧ layout C (d + 1) seed t = a ++ (zeros32 ++ rest) := by
  intro d
  induction d with
  | zero =>
    intro seed t hs ht ho
    refine ⟨splitRight C seed, KesSpec.treeKey C 0 (splitLeft C seed) ++ KesSpec.treeKey C 0 (splitRight C seed), splitRight_length C seed, ?_⟩
    rw [layout, if_neg (by simp; omega)]
    simp [layout]
  | succ d ih =>
    intro seed t hs ht ho
    rw [layout]
    split
    · next h =>
      obtain ⟨a, rest, ha, he⟩ := ih (splitLeft C seed) t (splitLeft_length C seed) h ho
      rw [he]
      exact ⟨a, rest ++ _, ha, by simp only [List.append_assoc]; rfl⟩
    · next h =>
      have hp : 2 ^ (d + 1 + 1) = 2 ^ (d + 1) * 2 := Nat.pow_succ 2 (d + 1)
      have hp2 : 2 ^ (d + 1) = 2 ^ d * 2 := Nat.pow_succ 2 d
      obtain ⟨a, rest, ha, he⟩ := ih (splitRight C seed) (t - 2 ^ (d + 1)) (splitRight_length C seed) (by omega) (by omega)
      rw [he]
      exact ⟨a, rest ++ _, ha, by simp only [List.append_assoc]; rfl⟩

/-- The state of affairs for a KES key (depth 6) that was generated and updated `t` times, and
the key rebuilt from the bytes in its file. -/
theorem kes_file (C : SigHash) (seed : Bytes) (hs : seed.length = 32) (t : Nat) (ht : t < 64) :
    ∃ k0 pk wiped k, Kes.keygen C 6 seed = .ok (k0, pk, wiped) ∧ updates C 6 t k0 = .ok k ∧
      k.prv.take 608 = layout C 6 seed t ∧ k.prv = layout C 6 seed t ++ packBE 4 t ∧ k.period_ = t ∧
      Kes.fromBytes 6 (k.prv.take 608) = .ok ⟨layout C 6 seed t ++ packBE 4 0, 0⟩ := by
  have hk : (keyAt C 6 seed t).prv.take 608 = layout C 6 seed t :=
    List.take_left' (by rw [layout_length C 6 seed t hs]; decide)
  refine ⟨_, _, _, _, keygen_ok C 6 seed hs, updates_keyAt C 6 seed (by omega) hs t ht, hk, rfl, rfl, ?_⟩
  rw [hk]
  have hl := layout_length C 6 seed t hs
  unfold Kes.fromBytes
  rw [if_neg (by simp [hl]), if_pos hl]
  have : Util.packBE 4 0 = List.replicate 4 0 := by decide
  rw [this]

theorem sign_any_tail (C : SigHash) (seed : Bytes) (hs : seed.length = 32) (t : Nat) (p : Nat) (tail : Bytes) (msg : Bytes) :
    Kes.sign C 6 ⟨layout C 6 seed t ++ tail, p⟩ msg = .ok (sigAt C 6 seed t msg) :=
  (signFromBuffer_ok C 6 seed t msg hs).2 _ (by omega)

theorem key_ext (a b : Kes.Key) (h : a.prv = b.prv) (h' : a.period_ = b.period_) : a = b := by
  cases a; cases b; simp only at h h'; rw [h, h']

/-- **C72, KES signing keys (what holds).** The key rebuilt from the file of a key in its first
period is the same object; in every period it has the same public key and makes the same
ordinary signatures. -/
theorem C72_kes_partial (C : SigHash) (seed : Bytes) (hs : seed.length = 32) (t : Nat) (ht : t < 64) :
    ∃ k0 pk wiped k r, Kes.keygen C 6 seed = .ok (k0, pk, wiped) ∧ updates C 6 t k0 = .ok k ∧
      Kes.fromBytes 6 (k.prv.take 608) = .ok r ∧ (t = 0 → r = k) ∧ Kes.publicKey C 5 r = .ok pk ∧
      ∀ msg, Kes.sign C 6 r msg = Kes.sign C 6 k msg := by
  obtain ⟨k0, pk, w, k, h1, h2, h3, h4, h5, h6⟩ := kes_file C seed hs t ht
  refine ⟨k0, pk, w, k, _, h1, h2, h6, ?_, ?_, ?_⟩
  · intro h0
    rw [h0] at h4 h5 ⊢
    exact key_ext _ _ h4.symm h5.symm
  · obtain ⟨k0', pk', k', g1, _, g3, g4⟩ := C23_public_key_constant C 5 (by omega) seed hs t ht
    rw [h1] at g1
    simp only [Out.ok.injEq, Prod.mk.injEq] at g1
    obtain ⟨rfl, rfl, _⟩ := g1
    rw [h2] at g3
    have g3 : k = k' := Out.ok.inj g3
    rw [← g3] at g4
    have e : ∀ (tail : Bytes) p, tail.length = 4 → Kes.publicKey C 5 ⟨layout C 6 seed t ++ tail, p⟩ = Kes.publicKey C 5 ⟨layout C 6 seed t ++ packBE 4 t, p⟩ := by
      intro tail p htl
      have hl : (layout C 6 seed t).length = 608 := by rw [layout_length C 6 seed t hs]; decide
      have hk6 : keySize (5 + 1) - 64 = 544 := by decide
      unfold Kes.publicKey slice
      simp only [hk6]
      have q : ∀ (x : Bytes) off, off + 32 ≤ 608 → ((layout C 6 seed t ++ x).drop off).take 32 = ((layout C 6 seed t).drop off).take 32 := by
        intro x off ho
        rw [List.drop_append_of_le_length (by omega), List.take_append_of_le_length (by rw [List.length_drop]; omega)]
      rw [q tail _ (by omega), q tail _ (by omega), q (packBE 4 t) _ (by omega), q (packBE 4 t) _ (by omega)]
      simp only [List.length_append, hl, htl, packBE4_length]
    have e2 : Kes.publicKey C 5 k = Kes.publicKey C 5 ⟨layout C 6 seed t ++ packBE 4 t, 0⟩ := by
      unfold Kes.publicKey; rw [h4]
    rw [e _ _ (packBE4_length 0), ← e2]
    exact g4
  · intro msg
    rw [sign_any_tail C seed hs]
    cases k
    simp only at h4 h5
    subst h4
    rw [sign_any_tail C seed hs]

/-- **C72 fails** for every KES key that was updated: the rebuilt key says it is in period 0. -/
theorem C72_kes_period_lost (C : SigHash) (seed : Bytes) (hs : seed.length = 32) (t : Nat) (ht : t < 64) (h0 : t ≠ 0) :
    ∃ k0 pk wiped k r, Kes.keygen C 6 seed = .ok (k0, pk, wiped) ∧ updates C 6 t k0 = .ok k ∧
      Kes.fromBytes 6 (k.prv.take 608) = .ok r ∧ Kes.period 6 k = t ∧ Kes.period 6 r = 0 ∧ r ≠ k := by
  obtain ⟨k0, pk, w, k, h1, h2, h3, h4, h5, h6⟩ := kes_file C seed hs t ht
  have pk : Kes.period 6 k = t := by
    cases k; simp only at h4 h5; subst h4; exact period_keyAt C 6 seed t _ hs ht (by omega)
  have hl : (layout C 6 seed t).length = keySize 6 := layout_length C 6 seed t hs
  have pr : Kes.period 6 ⟨layout C 6 seed t ++ packBE 4 0, 0⟩ = 0 := by
    unfold Kes.period
    simp only
    rw [List.drop_left' hl]
    decide
  exact ⟨k0, _, w, k, _, h1, h2, h6, pk, pr, by intro h; rw [← h, pr] at pk; exact h0 pk.symm⟩

/-- **C72 fails**, with consequences: a key saved in an odd period and rebuilt from its file
accepts an `update()` (in the last period, 63, the key itself refuses one) and from then on
signs with the all-zero seed, which anyone can do. -/
theorem C72_kes_zero_seed (C : SigHash) (seed : Bytes) (hs : seed.length = 32) (t : Nat) (ht : t < 64) (ho : t % 2 = 1) :
    ∃ k0 pk wiped k r r', Kes.keygen C 6 seed = .ok (k0, pk, wiped) ∧ updates C 6 t k0 = .ok k ∧
      Kes.fromBytes 6 (k.prv.take 608) = .ok r ∧ Kes.update C 6 r = (r', .ok ()) ∧ Kes.period 6 r' = 1 ∧
      (t = 63 → (Kes.update C 6 k).2 = .throw .runtimeError) ∧
      ∀ msg, ∃ sig, Kes.sign C 6 r' msg = .ok sig ∧ sig.take 64 = C.sign (List.replicate 32 0) msg := by
  obtain ⟨k0, pk, w, k, h1, h2, h3, h4, h5, h6⟩ := kes_file C seed hs t ht
  obtain ⟨a, rest, ha, hlay⟩ := layout_odd C 5 seed t hs ht ho
  have hl : (layout C 6 seed t).length = 608 := by rw [layout_length C 6 seed t hs]; decide
  have hz : zeros32.length = 32 := by decide
  have hrest : rest.length = 544 := by
    rw [hlay] at hl; simp only [List.length_append, ha, hz] at hl; omega
  have hper : Kes.period 6 ⟨layout C 6 seed t ++ packBE 4 0, 0⟩ = 0 := by
    unfold Kes.period
    simp only
    rw [List.drop_left' (by rw [hl]; decide)]
    decide
  have hub : updateBuffer C 6 (layout C 6 seed t ++ packBE 4 0) 0 = (zeros32 ++ (zeros32 ++ (rest ++ packBE 4 0)), .ok ()) := by
    have e : layout C 6 seed t ++ packBE 4 0 = a ++ (zeros32 ++ (rest ++ packBE 4 0)) := by rw [hlay]; simp
    rw [e]
    exact update_zero C 5 a zeros32 _ (by omega) ha hz (by simp [hrest, packBE4_length]; decide)
  have hks : keySize 6 = 608 := by decide
  refine ⟨k0, pk, w, k, _, ⟨zeros32 ++ (zeros32 ++ rest) ++ packBE 4 1, 1⟩, h1, h2, h6, ?_, ?_, ?_, ?_⟩
  · unfold Kes.update
    simp only [hper, hub]
    have e5 : (zeros32 ++ (zeros32 ++ (rest ++ packBE 4 0))).take (keySize (5 + 1)) = zeros32 ++ (zeros32 ++ rest) := by
      have : zeros32 ++ (zeros32 ++ (rest ++ packBE 4 0)) = (zeros32 ++ (zeros32 ++ rest)) ++ packBE 4 0 := by simp
      rw [this]; exact List.take_left' (by simp [hz, hrest]; decide)
    rw [e5]
  · unfold Kes.period
    simp only
    rw [List.drop_left' (by simp [hz, hrest]; decide)]
    decide
  · rintro rfl
    have := update_last C 6 (by omega) seed hs
    have e : k = keyAt C 6 seed (2 ^ 6 - 1) := by cases k; simp only at h4 h5; subst h4; subst h5; rfl
    rw [e, this]
  · intro msg
    obtain ⟨sig, g1, g2⟩ := sign_front C 6 zeros32 (zeros32 ++ rest ++ packBE 4 1) msg hz (by omega)
      (by simp [hz, hrest, packBE4_length]; decide)
    refine ⟨sig, ?_, g2⟩
    have e : zeros32 ++ (zeros32 ++ rest) ++ packBE 4 1 = zeros32 ++ (zeros32 ++ rest ++ packBE 4 1) := by simp
    rw [← g1]
    unfold Kes.sign
    simp only [e]

/-- The hypotheses are met. -/
example : ∃ seed : Bytes, seed.length = 32 ∧ (63 : Nat) < 64 ∧ 63 % 2 = 1 := ⟨List.replicate 32 7, by decide⟩

end

end Cardano.Pool
