import Verif.Lemmas.Ed25519Card
import Verif.Props.KesEd25519
import Verif.Props.Vrf
import Verif.Props.TssSign

/-! # Signatures, VRF and KES on the real curve (C22, C59, C71)

Nothing is left of the curve interface here: the group is edwards25519 itself. -/

namespace Cardano.Ed

open Edwards

theorem two_torsion (Q : EdPt) (h : Q + Q = 0) : Q.x = 0 := by
  rcases mul_eq_zero.mp (y_of_two Q h) with h0 | h0
  · exact h0
  · exfalso
    have hz := dbl_y Q
    have on2 := on' Q
    rw [h, zero_y_one, h0] at hz
    rw [h0] at on2
    exact two_ne (by linear_combination hz - on2)

theorem four_torsion (Q : EdPt) (h : (Q + Q) + (Q + Q) = 0) : Q.x = 0 ∨ Q.y = 0 := by
  have h1 := two_torsion _ h
  have h2 := dbl_x Q
  rw [h1, zero_mul] at h2
  have h3 : (2 : Fp) * (Q.x * Q.y) = 0 := by linear_combination -h2
  exact mul_eq_zero.mp ((mul_eq_zero.mp h3).resolve_left two_ne)

theorem y_of_x_zero (Q : EdPt) (h : Q.x = 0) : Q.y = 1 ∨ Q.y = -1 := by
  have := on' Q
  rw [h] at this
  exact sq_eq_one_iff_of_ne_zero_or Q this
where
  sq_eq_one_iff_of_ne_zero_or (Q : EdPt) (h : -(0 : Fp) ^ 2 + Q.y ^ 2 = 1 + dNat * 0 ^ 2 * Q.y ^ 2) : Q.y = 1 ∨ Q.y = -1 :=
    sq_eq_sq_iff_eq_or_eq_neg.mp (by rw [one_pow]; linear_combination h)

theorem eight_torsion (Q : EdPt) (h : 8 • Q = 0) :
    Q.y = 0 ∨ Q.y = 1 ∨ Q.y = -1 ∨ Q.y = (y8 : Fp) ∨ Q.y = -(y8 : Fp) := by
  rw [eight_nsmul] at h
  rcases four_torsion _ h with hx | hy
  · have h2 := dbl_x Q
    rw [hx, zero_mul] at h2
    have h3 : (2 : Fp) * (Q.x * Q.y) = 0 := by linear_combination -h2
    rcases mul_eq_zero.mp ((mul_eq_zero.mp h3).resolve_left two_ne) with h4 | h4
    · rcases y_of_x_zero Q h4 with h5 | h5
      · exact Or.inr (Or.inl h5)
      · exact Or.inr (Or.inr (Or.inl h5))
    · exact Or.inl h4
  · have h2 := dbl_y Q
    rw [hy, zero_mul] at h2
    have on := on' Q
    have hxy : Q.x ^ 2 = -Q.y ^ 2 := by linear_combination -h2
    rw [hxy] at on
    have e8 : (dNat * y8 ^ 4 + 2 * y8 ^ 2) % p25519 = 1 % p25519 := by decide +kernel
    have e8' := (ZMod.natCast_eq_natCast_iff' _ _ _).mpr e8
    push_cast at e8'
    have hf : (Q.y ^ 2 - (y8 : Fp) ^ 2) * (dNat * (Q.y ^ 2 + (y8 : Fp) ^ 2) + 2) = 0 := by linear_combination on - e8'
    rcases mul_eq_zero.mp hf with h5 | h5
    · rcases sq_eq_sq_iff_eq_or_eq_neg.mp (sub_eq_zero.mp h5) with h6 | h6
      · exact Or.inr (Or.inr (Or.inr (Or.inl h6)))
      · exact Or.inr (Or.inr (Or.inr (Or.inr h6)))
    · exfalso
      -- the product of the two roots is `-1/d`, not a square
      have hp : (dNat : Fp) * (Q.y * y8) ^ 2 = -1 := by linear_combination (y8 : Fp) ^ 2 * h5 - e8'
      have hne : Q.y * (y8 : Fp) ≠ 0 := by
        intro h0
        rw [h0] at hp
        exact one_ne_zero (α := Fp) (by linear_combination hp)
      apply dNat_nonsquare
      refine ⟨iNat / (Q.y * y8), ?_⟩
      rw [div_mul_div_comm, eq_div_iff (mul_ne_zero hne hne)]
      linear_combination hp - iNat_sq

/-- libsodium's black list is complete: it holds exactly the encodings of the points of the
8-torsion. -/
theorem edSmallOrder_iff (P : EdPt) : edwards25519.smallOrder (edwards25519.enc P) = true ↔ 8 • P = 0 := by
  have hdef : edwards25519.smallOrder = edSmallOrder := rfl
  have hdef' : edwards25519.enc P = edEnc P := rfl
  rw [hdef, hdef']
  refine ⟨edSmallOrder_spec P, fun h => ?_⟩
  unfold edSmallOrder
  rw [decide_eq_true_iff, edEnc_y]
  have hc : ∀ n : Nat, n < p25519 → ∀ y : Fp, y = (n : Fp) → y.val = n := by
    rintro n hn y rfl; exact ZMod.val_cast_of_lt hn
  have hneg : ∀ n : Nat, n ≤ p25519 → ((p25519 - n : Nat) : Fp) = -(n : Fp) := by
    intro n hn
    rw [Nat.cast_sub hn, ZMod.natCast_self, zero_sub]
  rcases eight_torsion P h with h | h | h | h | h
  · rw [hc 0 (by decide +kernel) _ (by rw [h, Nat.cast_zero])]; decide +kernel
  · rw [hc 1 (by decide +kernel) _ (by rw [h, Nat.cast_one])]; decide +kernel
  · rw [hc (p25519 - 1) (by decide +kernel) _ (by rw [h, hneg 1 (by decide +kernel), Nat.cast_one])]; decide +kernel
  · rw [hc y8 (by decide +kernel) _ h]; decide +kernel
  · rw [hc (p25519 - y8) (by decide +kernel) _ (by rw [h, hneg y8 (by decide +kernel)])]; decide +kernel

/-- A key that passes libsodium's tests is the encoding of a point outside the 8-torsion. -/
theorem accepted_key (pk : Bytes) (A : EdPt) (hc : edwards25519.canonical pk = true)
    (hs : edwards25519.smallOrder pk = false) (hd : edwards25519.dec pk = some A) :
    pk = edwards25519.enc A ∧ 8 • A ≠ 0 := by
  have main : pk = edwards25519.enc A := by
    have hd' : edDec pk = some A := hd
    have hc' : edCanonical pk = true := hc
    have hs' : edSmallOrder pk = false := hs
    unfold edCanonical at hc'
    rw [decide_eq_true_iff] at hc'
    unfold edDec at hd'
    dsimp only at hd'
    split at hd'
    · rename_i hb
      have hA := Option.some.inj hd'
      have hy : A.y = ((leNat pk % 2 ^ 255 : Nat) : Fp) := by rw [← hA]
      have hyv : A.y.val = leNat pk % 2 ^ 255 := by rw [hy]; exact ZMod.val_cast_of_lt hc'
      have hx : A.x = xOf A.y (leNat pk / 2 ^ 255 % 2) := by rw [hy, ← hA]
      have hpar : A.x.val % 2 = leNat pk / 2 ^ 255 % 2 := by
        rw [hx]
        unfold xOf
        split
        · assumption
        · rename_i hne
          by_cases h0 : rootOf A.y = 0
          · exfalso
            have hx0 : A.x = 0 := by
              rw [hx]; unfold xOf; rw [h0]; simp
            have hsm : edSmallOrder pk = true := by
              unfold edSmallOrder
              rw [decide_eq_true_iff, ← hyv]
              rcases y_of_x_zero A hx0 with h | h
              · rw [h, ZMod.val_one'' (by decide +kernel)]; decide +kernel
              · have : A.y = ((p25519 - 1 : Nat) : Fp) := by
                  rw [h, Nat.cast_sub (by decide +kernel), ZMod.natCast_self, Nat.cast_one, zero_sub]
                rw [this, ZMod.val_cast_of_lt (by decide +kernel)]; decide +kernel
            rw [hs'] at hsm
            exact absurd hsm (by decide)
          · have := parity_neg _ h0
            have h1 : (-rootOf A.y).val % 2 < 2 := Nat.mod_lt _ (by decide)
            have h2 : (rootOf A.y).val % 2 < 2 := Nat.mod_lt _ (by decide)
            have h3 : leNat pk / 2 ^ 255 % 2 < 2 := Nat.mod_lt _ (by decide)
            omega
      show pk = edEnc A
      apply leNat_inj
      · rw [hb.1]; exact (le32_length _).symm
      · rw [edEnc_nat, hyv, hpar]
        have hlt := leNat_lt pk
        rw [hb.1] at hlt
        have e : (256 : Nat) ^ 32 = 2 ^ 255 * 2 := by decide +kernel
        rw [e] at hlt
        have : leNat pk / 2 ^ 255 < 2 := Nat.div_lt_of_lt_mul hlt
        rw [Nat.mod_eq_of_lt this]
        exact (Nat.mod_add_div _ _).symm
    · cases hd'
  refine ⟨main, fun h => ?_⟩
  rw [main, (edSmallOrder_iff A).mpr h] at hs
  exact absurd hs (by decide)

end Cardano.Ed

namespace Cardano.Ed25519

open Cardano.Ed

/-- **C71** on edwards25519, exactly: `PublicKey::verifySignature` accepts a 64-byte signature
if and only if key and signature are the standard encodings of points `A`, `R` outside the
8-torsion and a number `s < ℓ` with `s·B = R + h·A`, `h` being the hash of `R`, key and message
modulo `ℓ`.  In particular there is exactly one accepted `s` for each `R`. -/
theorem C71_verify_iff_edwards25519 (sha : Bytes → Bytes) (pub msg sig : Bytes) (hl : sig.length = 64) :
    verifySignature edwards25519 sha pub msg sig = true ↔
      ∃ (A R : edwards25519.Pt) (s : Nat), pub = edwards25519.enc A ∧ sig = edwards25519.enc R ++ le32 s ∧ s < ellL ∧
        8 • A ≠ 0 ∧ 8 • R ≠ 0 ∧
        s • edwards25519.B = R + (leNat (sha (edwards25519.enc R ++ pub ++ msg)) % ellL) • A := by
  unfold verifySignature verifyDetached
  dsimp only
  constructor
  · intro h
    split at h
    · cases h
    rename_i hs
    split at h
    · cases h
    rename_i hr
    split at h
    · cases h
    rename_i hk
    split at h
    · cases h
    rename_i A hA
    rw [decide_eq_true_iff] at h
    simp only [Bool.or_eq_true, Bool.not_eq_true', not_or, Bool.not_eq_true, Bool.not_eq_false] at hk
    obtain ⟨e1, e2⟩ := accepted_key pub A hk.1 hk.2 hA
    refine ⟨A, leNat (sig.drop 32) • edwards25519.B - (leNat (sha (sig.take 32 ++ pub ++ msg)) % ellL) • A, leNat (sig.drop 32), e1, ?_, by omega, e2, ?_, ?_⟩
    · conv_lhs => rw [← List.take_append_drop 32 sig]
      rw [h]
      congr 1
      apply leNat_inj
      · rw [le32_length, List.length_drop, hl]
      · rw [leNat_le32 (Nat.lt_trans (by omega) (Nat.lt_trans ellL_lt (by decide)))]
    · intro h8
      rw [← h] at hr
      exact hr ((edSmallOrder_iff _).mpr h8)
    · rw [h, sub_add_cancel]
  · rintro ⟨A, R, s, rfl, rfl, hs, hA, hR, e⟩
    have hlen := edwards25519.enc_length R
    rw [List.take_left' hlen, List.drop_left' hlen, leNat_le32 (Nat.lt_trans hs (Nat.lt_trans ellL_lt (by decide)))]
    rw [if_neg (by omega), if_neg (fun h => hR ((edSmallOrder_iff R).mp h)), edwards25519.canonical_enc, edwards25519.dec_enc]
    have hA' : edwards25519.smallOrder (edwards25519.enc A) = false := by
      cases hb : edwards25519.smallOrder (edwards25519.enc A)
      · rfl
      · exact absurd ((edSmallOrder_iff A).mp hb) hA
    rw [hA']
    simp only [Bool.not_true, Bool.or_false, Bool.false_eq_true, if_false]
    rw [decide_eq_true_iff, e, add_sub_cancel_right]

/-- **C71** on edwards25519: a signature made by the library verifies if and only if the nonce
hash is not a multiple of the group order. -/
theorem C71_sign_verifies_edwards25519 (sha : Bytes → Bytes) (prv msg : Bytes) (hp : prv.length = 32) :
    verifySignature edwards25519 sha (publicKey edwards25519 sha prv) msg (sign edwards25519 sha prv msg) = true ↔
      ¬ ellL ∣ leNat (sha ((sha prv).drop 32 ++ msg)) := by
  constructor
  · intro h hz
    rw [C71_zero_nonce_rejected edwards25519 sha prv msg hp edSmallOrder_zero hz] at h
    cases h
  · intro h
    exact (C71_sign_verifies edwards25519 sha prv msg hp h).2

/-- Public keys are points of order exactly `ℓ` (never of the 8-torsion, never with a torsion
part). -/
theorem C71_public_key_order (sha : Bytes → Bytes) (prv : Bytes) :
    ∃ A : edwards25519.Pt, publicKey edwards25519 sha prv = edwards25519.enc A ∧ ∀ n : Nat, n • A = 0 ↔ ellL ∣ n := by
  refine ⟨seedScalar sha prv • edwards25519.B, rfl, fun n => ?_⟩
  rw [← mul_nsmul', edwards25519.order]
  constructor
  · intro h
    exact (ellL_prime.dvd_mul.mp h).resolve_right (seedScalar_not_dvd sha prv)
  · intro h
    exact Dvd.dvd.mul_right h _

end Cardano.Ed25519

namespace Cardano.Kes

open Cardano.Ed Cardano.Ed25519 KesSpec

/-- **C22** on edwards25519. -/
theorem C22_edwards25519 (sha hash : Bytes → Bytes) (hh : ∀ x, (hash x).length = 32) (d : Nat) (hd : d < 32)
    (seed : Bytes) (hs : seed.length = 32) (t : Nat) (ht : t < 2 ^ d) (msg : Bytes) :
    ∃ k0 pk wiped k sig, keygen (sigHash edwards25519 sha hash hh) d seed = .ok (k0, pk, wiped) ∧
      updates (sigHash edwards25519 sha hash hh) d t k0 = .ok k ∧ sign (sigHash edwards25519 sha hash hh) d k msg = .ok sig ∧
      (verify (sigHash edwards25519 sha hash hh) d t pk msg sig = .ok true ↔
        ¬ ellL ∣ leNat (sha ((sha (seedAt (sigHash edwards25519 sha hash hh) seed (leafPath d t))).drop 32 ++ msg))) :=
  C22_ed25519 edwards25519 edSmallOrder_zero sha hash hh d hd seed hs t ht msg

end Cardano.Kes

namespace Cardano.Vrf

open Cardano.Ed

/-- **C59** on edwards25519, for every map `f` into the curve followed by multiplication by the
cofactor (Elligator 2 is one): proofs verify. -/
theorem C59_edwards25519 (f : Bytes → EdPt) (sha : Bytes → Bytes) (seed msg : Bytes) (hs : seed.length = 32)
    (hsha : ∀ b, (sha b).length = 64) :
    ∃ proof out, constructProof (clearCofactor f) sha (fromSeed edwards25519 sha seed) msg = .ok proof ∧ proof.length = 80 ∧
      pubVerifyProof (clearCofactor f) sha (Ed25519.publicKey edwards25519 sha seed) msg proof = .ok true ∧
      proofToHash edwards25519 sha proof = .ok out ∧ out.length = 64 := by
  obtain ⟨proof, out, h1, h2, h3, _, h5, _, _, h8, _⟩ := C59_proof_verifies (clearCofactor f) sha seed msg hs hsha
  exact ⟨proof, out, h1, h2, h3, h5, h8⟩

end Cardano.Vrf

/-- A key, a message and a hash for which a signature on edwards25519 is accepted. -/
example : let sha : Cardano.Bytes → Cardano.Bytes := fun b => (b ++ 1 :: List.replicate 64 0).take 64
    let k : Cardano.Bytes := List.replicate 32 5
    Cardano.Ed25519.verifySignature Cardano.Ed.edwards25519 sha (Cardano.Ed25519.publicKey Cardano.Ed.edwards25519 sha k) [1, 2, 3]
      (Cardano.Ed25519.sign Cardano.Ed.edwards25519 sha k [1, 2, 3]) = true := by
  intro sha k
  exact (Cardano.Ed25519.C71_sign_verifies_edwards25519 sha k [1, 2, 3] rfl).mpr (by decide +kernel)

/-- Key derivation and threshold signing hold for every curve, so for this one. -/
example := Cardano.Bip32.C33_sign_verifies Cardano.Ed.edwards25519
example := Cardano.Tss.C38_shamir Cardano.Ed.edwards25519
