import Verif.Props.Ed25519

/-! # Properties of `vrf.cpp` (C59) -/

namespace Cardano.Vrf

open Cardano Cardano.Ed Cardano.Ed25519 Cardano.Bip32

/-- **C59**: a secret key made from a seed has 64 bytes, is valid, and its public key is the
Ed25519 public key of the seed. -/
theorem C59_fromSeed (C : Curve) (sha : Bytes → Bytes) (seed : Bytes) (hs : seed.length = 32) :
    (fromSeed C sha seed).length = 64 ∧ isValid C sha (fromSeed C sha seed) = true ∧
    publicKey (fromSeed C sha seed) = Ed25519.publicKey C sha seed ∧ (fromSeed C sha seed).take 32 = seed := by
  have hl : (seedPub C sha seed).length = 32 := C.enc_length _
  unfold fromSeed isValid publicKey Ed25519.publicKey seedKeypair
  refine ⟨by simp [hs, hl], ?_, ?_, List.take_left' hs⟩
  · simp only [List.length_append, hs, hl, List.drop_left' hs, List.take_left' hs]
    simp
  · simp only [List.drop_left' hs]
    exact List.take_of_length_le (by omega)

/-- **C59**: a 64-byte secret key is valid exactly when it is the key made from its own first
half. -/
theorem C59_isValid_iff (C : Curve) (sha : Bytes → Bytes) (prv : Bytes) (hp : prv.length = 64) :
    isValid C sha prv = true ↔ prv = fromSeed C sha (prv.take 32) := by
  have ht : (prv.take 32).length = 32 := by rw [List.length_take]; omega
  constructor
  · intro h
    unfold isValid at h
    rw [hp] at h
    have h := eq_of_beq h
    unfold fromSeed seedKeypair
    simp only
    have h : prv.drop 32 = seedPub C sha (prv.take 32) := h
    rw [← h, List.take_append_drop]
  · intro h
    rw [h]; exact (C59_fromSeed C sha _ ht).2.1

theorem mod_ell_smul' (C : Curve) (G : Elligator C) (n : Nat) (b : Bytes) : (n % ellL) • G.map b = n • G.map b := by
  conv_rhs => rw [← Nat.mod_add_div n ellL]
  rw [add_nsmul, mul_nsmul, G.order, nsmul_zero, add_zero]

theorem stringToPoint_enc (C : Curve) (p : C.Pt) : stringToPoint C (C.enc p) = some p := by
  unfold stringToPoint; rw [C.canonical_enc, if_pos rfl, C.dec_enc]

/-- **C59**: a generated key is the key of the 32 random bytes drawn: it is valid and different
random bytes give different keys, so none of the entropy is lost. -/
theorem C59_generate (C : Curve) (sha : Bytes → Bytes) (r r' : Bytes) (h : r.length = 32) (h' : r'.length = 32) :
    generate C sha r = fromSeed C sha r ∧ isValid C sha (generate C sha r) = true ∧
      (generate C sha r = generate C sha r' → r = r') := by
  have e : ∀ r : Bytes, r.length = 32 → generate C sha r = fromSeed C sha r := by
    intro r h
    unfold generate Ed25519.generate
    have : ((seedKeypair C sha r).2).take 32 = r := (C59_fromSeed C sha r h).2.2.2
    rw [this]
  refine ⟨e r h, by rw [e r h]; exact (C59_fromSeed C sha r h).2.1, ?_⟩
  rw [e r h, e r' h']
  intro hh
  rw [← (C59_fromSeed C sha r h).2.2.2, ← (C59_fromSeed C sha r' h').2.2.2, hh]

/-- The proof of a valid key, spelled out. -/
theorem constructProof_fromSeed {C : Curve} (G : Elligator C) (sha : Bytes → Bytes) (seed msg : Bytes) (hs : seed.length = 32)
    (hsha : ∀ b, (sha b).length = 64) :
    ∃ (c s : Bytes) (k : Nat), c.length = 16 ∧ s.length = 32 ∧
      leNat s = (leNat c * seedScalar sha seed + k) % ellL ∧
      c = vrfChallenge C sha (vrfHashToCurve G sha (seedScalar sha seed • C.B) msg)
        (seedScalar sha seed • vrfHashToCurve G sha (seedScalar sha seed • C.B) msg) (k • C.B)
        (k • vrfHashToCurve G sha (seedScalar sha seed • C.B) msg) ∧
      constructProof G sha (fromSeed C sha seed) msg =
        .ok (C.enc (seedScalar sha seed • vrfHashToCurve G sha (seedScalar sha seed • C.B) msg) ++ c ++ s) := by
  unfold constructProof vrfProve fromSeed seedKeypair
  simp only [List.take_left' hs, List.drop_left' hs, seedPub, stringToPoint_enc]
  refine ⟨_, _, _, ?_, ?_, ?_, rfl, rfl⟩
  · unfold vrfChallenge; rw [List.length_take, hsha]; decide
  · exact le32_length _
  · rw [leNat_le32 (Nat.lt_trans (mod_ell_lt _) (by decide))]

/-- **C59**: for every seed and message, `constructProof` succeeds with 80 bytes, the proof
verifies under the key (both entry points), `hash` succeeds, and it is the hash of the proof
and the output of the verification: the SHA-512 of the suite, the domain byte and the point
`[8·x]H`. -/
theorem C59_proof_verifies {C : Curve} (G : Elligator C) (sha : Bytes → Bytes) (seed msg : Bytes) (hs : seed.length = 32)
    (hsha : ∀ b, (sha b).length = 64) :
    ∃ proof out, constructProof G sha (fromSeed C sha seed) msg = .ok proof ∧ proof.length = 80 ∧
      pubVerifyProof G sha (Ed25519.publicKey C sha seed) msg proof = .ok true ∧
      verifyProof G sha (fromSeed C sha seed) msg proof = .ok true ∧
      proofToHash C sha proof = .ok out ∧ hash G sha (fromSeed C sha seed) msg = .ok out ∧
      vrfVerify G sha (Ed25519.publicKey C sha seed) proof msg = some out ∧ out.length = 64 ∧
      (∀ x H, x = seedScalar sha seed → H = G.map ((sha ([4, 1] ++ Ed25519.publicKey C sha seed ++ msg)).take 32) →
        out = sha ([4, 3] ++ C.enc ((8 * x) • H))) := by
  obtain ⟨c, s, k, hc, hsl, hsv, hcv, hp⟩ := constructProof_fromSeed G sha seed msg hs hsha
  have hn := seedScalar_not_dvd sha seed
  have hpk : Ed25519.publicKey C sha seed = C.enc (seedScalar sha seed • C.B) := rfl
  generalize seedScalar sha seed = x at *
  have hHd : vrfHashToCurve G sha (x • C.B) msg = G.map ((sha ([4, 1] ++ Ed25519.publicKey C sha seed ++ msg)).take 32) := by
    unfold vrfHashToCurve; rw [hpk]
  generalize hb : (sha ([4, 1] ++ Ed25519.publicKey C sha seed ++ msg)).take 32 = b at *
  rw [hHd] at hp hcv
  have hlen : (C.enc (x • G.map b) ++ c ++ s).length = 80 := by simp [C.enc_length, hc, hsl]
  have h32 : (C.enc (x • G.map b) ++ c ++ s).take 32 = C.enc (x • G.map b) := by
    rw [List.append_assoc]; exact List.take_left' (C.enc_length _)
  have hmid : ((C.enc (x • G.map b) ++ c ++ s).drop 32).take 16 = c := by
    rw [List.append_assoc, List.drop_left' (C.enc_length _)]; exact List.take_left' hc
  have hend : ((C.enc (x • G.map b) ++ c ++ s).drop 48).take 32 = s := by
    rw [List.drop_left' (by simp [C.enc_length, hc])]; exact List.take_of_length_le (by omega)
  have hout : vrfProofToHash C sha (C.enc (x • G.map b) ++ c ++ s) = some (sha ([4, 3] ++ C.enc (8 • x • G.map b))) := by
    unfold vrfProofToHash; rw [h32, stringToPoint_enc]
  have hver : vrfVerify G sha (Ed25519.publicKey C sha seed) (C.enc (x • G.map b) ++ c ++ s) msg =
      some (sha ([4, 3] ++ C.enc (8 • x • G.map b))) := by
    unfold vrfVerify
    rw [hpk, nsmul_not_small C x hn, h32, hmid, hend]
    simp only [Bool.false_eq_true, if_false, stringToPoint_enc, hHd, hsv, Nat.mod_mod]
    have e1 : ((leNat c * x + k) % ellL) • C.B - leNat c • x • C.B = k • C.B := by
      rw [mod_ell_smul, add_nsmul, mul_nsmul', add_sub_cancel_left]
    have e2 : ((leNat c * x + k) % ellL) • G.map b - leNat c • x • G.map b = k • G.map b := by
      rw [mod_ell_smul', add_nsmul, mul_nsmul', add_sub_cancel_left]
    rw [e1, e2, if_pos hcv.symm, hout]
  have hpub : pubVerifyProof G sha (Ed25519.publicKey C sha seed) msg (C.enc (x • G.map b) ++ c ++ s) = .ok true := by
    unfold pubVerifyProof
    rw [if_neg (by rw [hlen]; decide), List.take_of_length_le (by omega), hver]; rfl
  refine ⟨_, _, hp, hlen, hpub, ?_, ?_, ?_, hver, hsha _, ?_⟩
  · unfold verifyProof; rw [(C59_fromSeed C sha seed hs).2.2.1]; exact hpub
  · unfold proofToHash; rw [hout]
  · unfold hash proofToHash; rw [hp, Out.ok_bind, hout]
  · rintro y H rfl rfl
    rw [mul_nsmul']

/-- **C59**: messages signed with the key verify under its public key (same corner as C71). -/
theorem C59_sign (C : Curve) (sha : Bytes → Bytes) (seed msg : Bytes) (hs : seed.length = 32)
    (hr : ¬ ellL ∣ leNat (sha ((sha seed).drop 32 ++ msg))) :
    verifySignature C sha (publicKey (fromSeed C sha seed)) msg (sign C sha (fromSeed C sha seed) msg) = true := by
  obtain ⟨_, _, h3, h4⟩ := C59_fromSeed C sha seed hs
  unfold sign
  rw [h3, h4]
  exact (C71_sign_verifies C sha seed msg hs hr).2

/-- The string whose hash gives the challenge for four points (draft-irtf-cfrg-vrf-03, 5.4.3). -/
def challengeInput (C : Curve) (a b c d : C.Pt) : Bytes := [4, 2] ++ C.enc a ++ C.enc b ++ C.enc c ++ C.enc d

/-- **C59**: `constructProof` of a key whose halves do not match (any 64 bytes whose second
half decodes to a point `Y`) does not throw, but its proof verifies only if `[c](Y - xB)` is
zero for the challenge `c` of the proof — or the proof supplies a collision of the truncated
hash: the string hashed by the prover and the string hashed by the verifier differ and have the
same challenge. -/
theorem C59_invalid_key {C : Curve} (G : Elligator C) (sha : Bytes → Bytes) (prv msg proof : Bytes) (hp : prv.length = 64)
    (hsha : ∀ b, (sha b).length = 64)
    (h : constructProof G sha prv msg = .ok proof) (hv : verifyProof G sha prv msg proof = .ok true) :
    ∃ Y, C.dec (publicKey prv) = some Y ∧
      let x := seedScalar sha (prv.take 32)
      let c := leNat ((proof.drop 32).take 16)
      let s := leNat ((proof.drop 48).take 32)
      let H := vrfHashToCurve G sha Y msg
      let k := leNat (sha (seedPrefix sha (prv.take 32) ++ C.enc H)) % ellL
      let verifier := challengeInput C H (x • H) (s • C.B - c • Y) (s • H - c • x • H)
      let prover := challengeInput C H (x • H) (k • C.B) (k • H)
      c • Y = c • x • C.B ∨ (verifier ≠ prover ∧ (sha verifier).take 16 = (sha prover).take 16) := by
  have hpub : publicKey prv = prv.drop 32 := by
    unfold publicKey; exact List.take_of_length_le (by rw [List.length_drop]; omega)
  unfold constructProof vrfProve at h
  rw [hpub]
  cases hy : stringToPoint C (prv.drop 32) with
  | none => rw [hy] at h; exact absurd h (by simp)
  | some Y =>
    have hdec : C.dec (prv.drop 32) = some Y := by
      unfold stringToPoint at hy
      split at hy
      · exact hy
      · exact absurd hy (by simp)
    refine ⟨Y, hdec, ?_⟩
    dsimp only
    rw [hy] at h
    simp only [Out.ok.injEq] at h
    unfold vrfHashToCurve at h ⊢
    generalize hb : (sha ([4, 1] ++ C.enc Y ++ msg)).take 32 = b at h ⊢
    generalize seedScalar sha (prv.take 32) = x at *
    generalize leNat (sha (seedPrefix sha (prv.take 32) ++ C.enc (G.map b))) % ellL = k at h ⊢
    generalize hc : vrfChallenge C sha (G.map b) (x • G.map b) (k • C.B) (k • G.map b) = c at h
    have hcl : c.length = 16 := by rw [← hc]; unfold vrfChallenge; rw [List.length_take, hsha]; decide
    have hsl := le32_length ((leNat c * x + k) % ellL)
    have hsv : leNat (le32 ((leNat c * x + k) % ellL)) = (leNat c * x + k) % ellL :=
      leNat_le32 (Nat.lt_trans (mod_ell_lt _) (by decide))
    generalize le32 ((leNat c * x + k) % ellL) = s at *
    have h32 : (C.enc (x • G.map b) ++ c ++ s).take 32 = C.enc (x • G.map b) := by
      rw [List.append_assoc]; exact List.take_left' (C.enc_length _)
    have hmid : ((C.enc (x • G.map b) ++ c ++ s).drop 32).take 16 = c := by
      rw [List.append_assoc, List.drop_left' (C.enc_length _)]; exact List.take_left' hcl
    have hend : ((C.enc (x • G.map b) ++ c ++ s).drop 48).take 32 = s := by
      rw [List.drop_left' (by simp [C.enc_length, hcl])]; exact List.take_of_length_le (by omega)
    have hlen : (C.enc (x • G.map b) ++ c ++ s).length = 80 := by simp [C.enc_length, hcl, hsl]
    subst h
    unfold verifyProof pubVerifyProof at hv
    rw [if_neg (by rw [hlen]; decide), List.take_of_length_le (by omega), hpub] at hv
    unfold vrfVerify at hv
    rw [h32, hmid, hend, hy, stringToPoint_enc] at hv
    rw [hmid, hend, hsv]
    by_cases hso : C.smallOrder (prv.drop 32) = true
    · rw [hso] at hv; simp at hv
    · simp only [hso, if_false, vrfHashToCurve, hb, hsv, Nat.mod_mod] at hv
      by_cases heq : vrfChallenge C sha (G.map b) (x • G.map b) (((leNat c * x + k) % ellL) • C.B - leNat c • Y)
          (((leNat c * x + k) % ellL) • G.map b - leNat c • x • G.map b) = c
      · clear hv
        have heq := heq.trans hc.symm
        by_cases hu : ((leNat c * x + k) % ellL) • C.B - leNat c • Y = k • C.B
        · left
          rw [mod_ell_smul, add_nsmul, mul_nsmul'] at hu
          have := congrArg (fun z => z - k • C.B + leNat c • Y) hu
          beta_reduce at this
          have e : leNat c • x • C.B + k • C.B - leNat c • Y - k • C.B + leNat c • Y = leNat c • x • C.B := by abel
          rw [e] at this
          rw [this]; abel
        · right
          refine ⟨?_, heq⟩
          intro he
          apply hu
          unfold challengeInput at he
          simp only [List.append_assoc] at he
          have h1 := List.append_cancel_left he
          obtain ⟨_, h2⟩ := List.append_inj h1 rfl
          have h3 := (List.append_inj h2 rfl).2
          obtain ⟨h4, _⟩ := List.append_inj h3 (by rw [C.enc_length, C.enc_length])
          exact C.enc_inj h4
      · rw [if_neg heq] at hv; simp at hv

/-- **C59**: `proofToHash` of any 80 bytes: the hash of the cofactor-cleared point if the first half is the canonical
encoding of a point, an exception otherwise; nothing else of the proof is looked at. -/
theorem C59_proofToHash (C : Curve) (sha : Bytes → Bytes) (proof : Bytes) :
    (∀ gamma, C.canonical (proof.take 32) = true → C.dec (proof.take 32) = some gamma →
      proofToHash C sha proof = .ok (sha ([4, 3] ++ C.enc (8 • gamma)))) ∧
    ((C.canonical (proof.take 32) = false ∨ C.dec (proof.take 32) = none) → proofToHash C sha proof = .throw .runtimeError) := by
  refine ⟨fun gamma h1 h2 => ?_, fun h => ?_⟩
  · simp only [proofToHash, vrfProofToHash, stringToPoint, h1, h2, if_true]
  · rcases h with h | h <;> simp [proofToHash, vrfProofToHash, stringToPoint, h]

/-- **C59**: whatever proof verifies (made by this library or not), `proofToHash` gives the output that verification
computed, and never an exception. -/
theorem C59_verified_output {C : Curve} (G : Elligator C) (sha : Bytes → Bytes) (pub msg proof : Bytes) (hl : proof.length = 80)
    (h : pubVerifyProof G sha pub msg proof = .ok true) :
    ∃ out, proofToHash C sha proof = .ok out ∧ vrfVerify G sha pub proof msg = some out := by
  unfold pubVerifyProof at h
  rw [if_neg (by omega), List.take_of_length_le (by omega)] at h
  cases hv : vrfVerify G sha pub proof msg with
  | none => rw [hv] at h; exact absurd h (by simp)
  | some out =>
    refine ⟨out, ?_, rfl⟩
    unfold vrfVerify at hv
    split at hv
    · cases hv
    · split at hv
      · dsimp only at hv
        split at hv
        · unfold proofToHash; rw [hv]
        · cases hv
      · cases hv

/-- **C59 fails** for short spans: `VRFPublicKey::verifyProof` takes a span of any length and
reads 80 bytes from its start. -/
theorem C59_short_proof {C : Curve} (G : Elligator C) (sha : Bytes → Bytes) (pub msg proof : Bytes) :
    pubVerifyProof G sha pub msg proof = .ub ↔ proof.length < 80 := by
  unfold pubVerifyProof
  split <;> simp [*]

/-- … and bytes past the 80th are ignored, so a proof with trailing bytes still verifies. -/
theorem C59_long_proof {C : Curve} (G : Elligator C) (sha : Bytes → Bytes) (pub msg proof extra : Bytes) (h : proof.length = 80) :
    pubVerifyProof G sha pub msg (proof ++ extra) = pubVerifyProof G sha pub msg proof := by
  unfold pubVerifyProof
  rw [if_neg (by simp; omega), if_neg (by omega), List.take_append_of_le_length (by omega)]

/-- An Elligator map for the toy curve, and a key whose halves do not match. -/
def toyElligator : Elligator toyCurve where
  map b := leNat b • toyCurve.B
  order b := by rw [← mul_nsmul', toyCurve.order]; exact Nat.dvd_mul_right _ _

example : ∃ proof out, constructProof toyElligator (fun b => (b ++ List.replicate 64 1).take 64)
      (fromSeed toyCurve (fun b => (b ++ List.replicate 64 1).take 64) (List.replicate 32 9)) [1, 2] = .ok proof ∧
    hash toyElligator (fun b => (b ++ List.replicate 64 1).take 64)
      (fromSeed toyCurve (fun b => (b ++ List.replicate 64 1).take 64) (List.replicate 32 9)) [1, 2] = .ok out := by
  obtain ⟨p, o, h, _, _, _, _, h2, _⟩ := C59_proof_verifies toyElligator (fun b => (b ++ List.replicate 64 1).take 64)
    (List.replicate 32 9) [1, 2] rfl (fun b => by simp)
  exact ⟨p, o, h, h2⟩

end Cardano.Vrf
