import Verif.Model.Ed25519
import Verif.Props.Bip32
import Verif.Spec.Crypto

/-! # Properties of `ed25519.cpp` and `vrf.cpp` (C59, C71) -/

namespace Cardano.Ed25519

open Cardano Cardano.Ed Cardano.Bip32 Cardano.Spec.Bip32

theorem clampNat_clamped (n : Nat) : Clamped (clampNat n) := by
  unfold clampNat Clamped
  have e : (2 : Nat) ^ 255 = 2 ^ 254 + 2 ^ 254 := by decide
  have e8 : (2 : Nat) ^ 254 = 8 * 2 ^ 251 := by decide
  have h := Nat.mod_lt n (show 0 < 2 ^ 254 by decide)
  generalize n % 2 ^ 254 = a at *
  generalize (2 : Nat) ^ 251 = u at *
  rw [e, e8]
  rw [e8] at h
  refine ⟨?_, ?_, ?_⟩ <;> omega

/-- The public key of every seed is a point of full order. -/
theorem seedScalar_not_dvd (sha : Bytes → Bytes) (seed : Bytes) : ¬ ellL ∣ seedScalar sha seed :=
  clamped_not_dvd (clampNat_clamped _)

/-- Whether a signature made by the library verifies depends only on the nonce. -/
theorem verify_sign_iff (C : Curve) (sha : Bytes → Bytes) (prv msg : Bytes) (hp : prv.length = 32) :
    (sign C sha prv msg).length = 64 ∧
    (verifySignature C sha (publicKey C sha prv) msg (sign C sha prv msg) = true ↔
      C.smallOrder (C.enc (leNat (sha (seedPrefix sha prv ++ msg)) • C.B)) = false) := by
  unfold sign verifySignature publicKey signDetached seedKeypair
  simp only [List.take_left' hp, List.drop_left' hp]
  have hn := seedScalar_not_dvd sha prv
  unfold seedPub
  generalize seedScalar sha prv = x at *
  generalize hr : leNat (sha (seedPrefix sha prv ++ msg)) = r
  rw [mod_ell_smul]
  generalize hh : leNat (sha (C.enc (r • C.B) ++ C.enc (x • C.B) ++ msg)) = hash
  constructor
  · rw [List.length_append, C.enc_length, le32_length]
  unfold verifyDetached
  simp only [List.take_left' (C.enc_length _), List.drop_left' (C.enc_length _), C.canonical_enc, C.dec_enc, hh,
    nsmul_not_small C x hn]
  rw [leNat_le32 (Nat.lt_trans (mod_ell_lt _) (by decide))]
  have hlt : ¬ ((hash % ellL * x + r % ellL) % ellL ≥ ellL) := by
    have := Nat.mod_lt (hash % ellL * x + r % ellL) ellL_pos; omega
  rw [if_neg hlt]
  have e1 : ((hash % ellL * x + r % ellL) % ellL) • C.B - (hash % ellL) • x • C.B = r • C.B := by
    rw [mod_ell_smul, add_nsmul, mul_nsmul', mod_ell_smul, add_sub_cancel_left]
  rw [e1]
  cases hs : C.smallOrder (C.enc (r • C.B)) <;> simp

/-- **C71**: a signature made with `PrivateKey::sign` has 64 bytes and verifies under
`PrivateKey::publicKey`, for every key and message whose nonce hash is not a multiple of the
group order. -/
theorem C71_sign_verifies (C : Curve) (sha : Bytes → Bytes) (prv msg : Bytes) (hp : prv.length = 32)
    (hr : ¬ ellL ∣ leNat (sha ((sha prv).drop 32 ++ msg))) :
    (sign C sha prv msg).length = 64 ∧
    verifySignature C sha (publicKey C sha prv) msg (sign C sha prv msg) = true :=
  let h := verify_sign_iff C sha prv msg hp
  ⟨h.1, h.2.mpr (nsmul_not_small C _ hr)⟩

/-- The exception is real: if the nonce hash is a multiple of the order and the curve's
small-order test recognises the identity, the signature is rejected.  (Nobody can exhibit such
a message for SHA-512; RFC 8032 has the same corner.) -/
theorem C71_zero_nonce_rejected (C : Curve) (sha : Bytes → Bytes) (prv msg : Bytes) (hp : prv.length = 32)
    (h0 : C.smallOrder (C.enc 0) = true) (hr : ellL ∣ leNat (sha ((sha prv).drop 32 ++ msg))) :
    verifySignature C sha (publicKey C sha prv) msg (sign C sha prv msg) = false := by
  cases hv : verifySignature C sha (publicKey C sha prv) msg (sign C sha prv msg) with
  | false => rfl
  | true =>
    have := (verify_sign_iff C sha prv msg hp).2.mp hv
    have hz : leNat (sha (seedPrefix sha prv ++ msg)) • C.B = 0 := (C.order _).mpr hr
    rw [hz, h0] at this
    exact absurd this (by decide)

/-- libsodium's Ed25519 with any 32-byte hash meets the interface used by the KES and
transaction theorems; the exceptional case is the one of `C71_zero_nonce_rejected`. -/
def sigHash (C : Curve) (sha hash : Bytes → Bytes) (hh : ∀ x, (hash x).length = 32) : SigHash where
  hash := hash
  pub := publicKey C sha
  sign := sign C sha
  verify := verifySignature C sha
  zeroNonce seed msg := ellL ∣ leNat (sha ((sha seed).drop 32 ++ msg))
  hash_length := hh
  pub_length s := C.enc_length _
  sign_length s m := by
    unfold sign signDetached
    simp only [List.length_append, C.enc_length, le32_length]
  verify_sign s m hs hz := (C71_sign_verifies C sha s m hs hz).2

/-- **C71**: key pair and signature are those of RFC 8032 (5.1.5, 5.1.6), with the secret
scalar given bit by bit. -/
theorem C71_rfc8032 (C : Curve) (sha : Bytes → Bytes) (prv msg : Bytes) (hp : prv.length = 32) :
    ∀ (a r h : Nat) (A R S pre : Bytes), (∃ lo, sha prv = lo ++ pre ∧ lo.length = 32 ∧
        ∀ i, a.testBit i = (if i < 3 then false else if i < 254 then (leNat lo).testBit i else decide (i = 254))) →
      A = C.enc (a • C.B) → r = leNat (sha (pre ++ msg)) → R = C.enc (r • C.B) → h = leNat (sha (R ++ A ++ msg)) →
      S.length = 32 → leNat S = (r + h * a) % ellL →
      publicKey C sha prv = A ∧ sign C sha prv msg = R ++ S := by
  rintro a r h A R S pre ⟨lo, hsha, hlo, hbits⟩ rfl rfl rfl rfl hS hSv
  have hbit : ∀ i, (clampNat (leNat lo)).testBit i =
      (if i < 3 then false else if i < 254 then (leNat lo).testBit i else decide (i = 254)) := by
    intro i
    unfold clampNat
    have e : leNat lo % 2 ^ 254 / 8 * 8 = leNat lo % 2 ^ 254 / 2 ^ 3 * 2 ^ 3 := rfl
    rw [e]
    have hlt : leNat lo % 2 ^ 254 / 2 ^ 3 * 2 ^ 3 < 2 ^ 254 :=
      Nat.lt_of_le_of_lt (Nat.div_mul_le_self _ _) (Nat.mod_lt _ (by decide))
    rcases Nat.lt_trichotomy i 254 with hi | hi | hi
    · rw [Nat.testBit_two_pow_add_gt hi, Nat.testBit_mul_two_pow]
      by_cases h3 : i < 3
      · simp [h3, show ¬ 3 ≤ i by omega]
      · simp only [show 3 ≤ i by omega, decide_true, Bool.true_and, h3, if_false, hi, if_true]
        rw [Nat.testBit_div_two_pow, show i - 3 + 3 = i by omega, Nat.testBit_mod_two_pow]
        simp [hi]
    · subst hi
      rw [Nat.testBit_two_pow_add_eq, Nat.testBit_lt_two_pow hlt]; simp
    · rw [Nat.testBit_lt_two_pow]
      · simp [show ¬ i < 3 by omega, show ¬ i < 254 by omega, show i ≠ 254 by omega]
      · have h1 : 2 ^ 254 + leNat lo % 2 ^ 254 / 2 ^ 3 * 2 ^ 3 < 2 ^ 255 := by
          have : (2:Nat) ^ 255 = 2 ^ 254 + 2 ^ 254 := by decide
          omega
        exact Nat.lt_of_lt_of_le h1 (Nat.pow_le_pow_right (by decide) (by omega))
  have ha : a = clampNat (leNat lo) := Nat.eq_of_testBit_eq (fun i => by rw [hbits, hbit])
  have hx : seedScalar sha prv = a := by
    unfold seedScalar; rw [hsha, List.take_left' hlo, ha]
  have hpre : seedPrefix sha prv = pre := by unfold seedPrefix; rw [hsha, List.drop_left' hlo]
  unfold sign publicKey signDetached seedKeypair
  simp only [List.take_left' hp, List.drop_left' hp, seedPub, hx, hpre]
  refine ⟨trivial, ?_⟩
  rw [mod_ell_smul]
  congr 1
  apply leNat_inj (by rw [le32_length, hS])
  rw [leNat_le32 (Nat.lt_trans (mod_ell_lt _) (by decide)), hSv]
  generalize leNat (sha (pre ++ msg)) = r
  rw [Nat.add_mod, Nat.mod_mul_mod, Nat.mod_mod, ← Nat.add_mod, Nat.add_comm]

/-- The scalar of `bip32_ed25519::PrivateKey::fromSeed` is the scalar of the Ed25519 key with
the same seed, and the second halves agree. -/
theorem fromSeed_scalar (P : Prims) (seed : Bytes) :
    ∃ k, fromSeed P seed = .ok k ∧ kL k.key = seedScalar P.sha512 seed ∧ k.key.drop 32 = seedPrefix P.sha512 seed ∧ k.WF := by
  obtain ⟨b0, mid, b31, rest, hx, hm⟩ := split32 (P.sha512 seed) (by rw [P.sha512_length]; decide)
  have hl := P.sha512_length seed
  refine ⟨⟨(b0 / 8 * 8) :: (mid ++ (b31 % 64 + 64) :: rest), P.sha256 (1 :: seed)⟩, ?_, ?_, ?_, ?_, P.sha256_length _⟩
  · unfold fromSeed extend
    rw [hx, tweak_exact _ _ _ _ _ hm, byte_low_div, byte_byron]; rfl
  · unfold kL seedScalar
    rw [hx, clamp_bytes _ _ _ _ hm, clamp_bytes _ _ _ _ hm]
    unfold clampNat
    have hmid := leNat_lt mid
    rw [hm] at hmid
    have h1 : (b0 / 8 * 8).toNat = b0.toNat / 8 * 8 := (forall_byte (p := fun b => (b / 8 * 8).toNat = b.toNat / 8 * 8) (by decide +kernel)) b0
    have h2 : (b31 % 64 + 64).toNat = b31.toNat % 64 + 64 := (forall_byte (p := fun b => (b % 64 + 64).toNat = b.toNat % 64 + 64) (by decide +kernel)) b31
    rw [h1, h2]
    have hb0 := b0.toNat_lt
    have e1 : (256 : Nat) ^ 31 = 8 * (32 * 256 ^ 30) := by decide +kernel
    have e2 : (2 : Nat) ^ 254 = 64 * (8 * (32 * 256 ^ 30)) := by decide +kernel
    rw [e1, e2]
    generalize (256 : Nat) ^ 30 = w at *
    generalize leNat mid = m at *
    generalize b0.toNat = x at *
    generalize b31.toNat = y at *
    have hy : y = 64 * (y / 64) + y % 64 := (Nat.div_add_mod y 64).symm
    have hmod : (x + 256 * m + 8 * (32 * w) * y) % (64 * (8 * (32 * w))) = x + 256 * m + 8 * (32 * w) * (y % 64) := by
      have : x + 256 * m + 8 * (32 * w) * y = (x + 256 * m + 8 * (32 * w) * (y % 64)) + (64 * (8 * (32 * w))) * (y / 64) := by
        conv_lhs => rw [hy]
        ring
      rw [this, Nat.add_mul_mod_self_left, Nat.mod_eq_of_lt]
      have h64 : y % 64 < 64 := Nat.mod_lt _ (by decide)
      have : 8 * (32 * w) * (y % 64) ≤ 8 * (32 * w) * 63 := Nat.mul_le_mul_left _ (by omega)
      omega
    rw [hmod]
    generalize y % 64 = q
    have e3 : 8 * (32 * w) * (q + 64) = 8 * (32 * (w * q)) + 64 * (8 * (32 * w)) := by ring
    have e4 : 8 * (32 * w) * q = 8 * (32 * (w * q)) := by ring
    rw [e3, e4]
    generalize w * q = v
    omega
  · unfold seedPrefix
    rw [hx]
    simp only [List.drop_succ_cons]
    rw [List.drop_append, List.drop_append, hm]; simp [hm]
  · rw [hx] at hl; simp at hl ⊢; omega

/-- **C71**: the extended key made from an Ed25519 seed (`ColdSigningKey::extend`,
`bip32_ed25519::PrivateKey::fromSeed`) has the same public key, and every signature it makes
is the signature the Ed25519 key makes. -/
theorem C71_extended_same (C : Curve) (P : Prims) (seed : Bytes) (hs : seed.length = 32) :
    ∃ k p, fromSeed P seed = .ok k ∧ k.publicKey C = .ok p ∧ p.key = publicKey C P.sha512 seed ∧
      ∀ msg sig, k.sign C P msg = .ok sig → sig = sign C P.sha512 seed msg := by
  obtain ⟨k, h1, h2, h3, h4⟩ := fromSeed_scalar P seed
  have hn : ¬ ellL ∣ kL k.key := by rw [h2]; exact seedScalar_not_dvd _ _
  refine ⟨k, _, h1, publicKey_of hn, by simp only [h2]; rfl, ?_⟩
  intro msg sig hsig
  obtain ⟨_, _, hlen, _⟩ := C33_sign_verifies C P k msg sig hsig
  obtain ⟨ha, hb, hc⟩ := C33_sign_standard C P k msg sig hsig _ _ _ _ rfl rfl rfl rfl
  rw [h2, h3] at hc
  rw [h3] at ha
  unfold sign signDetached seedKeypair
  simp only [List.take_left' hs, List.drop_left' hs, seedPub]
  rw [← List.take_append_drop 32 sig, ha, mod_ell_smul]
  congr 1
  apply leNat_inj (by rw [le32_length, hb])
  rw [leNat_le32 (Nat.lt_trans (mod_ell_lt _) (by decide)), hc]
  generalize leNat (P.sha512 (seedPrefix P.sha512 seed ++ msg)) = r
  rw [Nat.add_mod (_ % ellL * _), Nat.mod_mul_mod, Nat.mod_mod, ← Nat.add_mod, Nat.add_comm]

/-- `generate` returns the random seed itself. -/
theorem C71_generate (C : Curve) (sha : Bytes → Bytes) (random : Bytes) (h : random.length = 32) :
    generate C sha random = random := by
  unfold generate seedKeypair; exact List.take_left' h

/-- A key and message meeting the hypotheses. -/
example : let sha : Bytes → Bytes := fun b => (b ++ 1 :: List.replicate 64 0).take 64
    let k : Bytes := List.replicate 32 5
    k.length = 32 ∧ (sha k).length = 64 ∧ ¬ ellL ∣ leNat (sha ((sha k).drop 32 ++ [1, 2, 3])) ∧
    verifySignature toyCurve sha (publicKey toyCurve sha k) [1, 2, 3] (sign toyCurve sha k [1, 2, 3]) = true := by
  intro sha k
  have h1 : k.length = 32 := rfl
  have h2 : ¬ ellL ∣ leNat (sha ((sha k).drop 32 ++ [1, 2, 3])) := by decide +kernel
  exact ⟨h1, by decide, h2, (C71_sign_verifies toyCurve sha k [1, 2, 3] h1 h2).2⟩

end Cardano.Ed25519
