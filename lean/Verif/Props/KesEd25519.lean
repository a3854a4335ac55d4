import Verif.Props.Kes
import Verif.Props.Ed25519

/-! # KES keys over libsodium's Ed25519

The KES theorems hold for every signature interface; here they are specialised to Ed25519 as
libsodium computes it, so that the only remaining parameters are the curve and the hashes. -/

namespace Cardano.Kes

open Cardano.Ed Cardano.Ed25519 KesSpec

/-- Verification of an honest KES signature is verification of its leaf's Ed25519 signature. -/
theorem verify_sigAt_eq (C : SigHash) : ∀ (d : Nat) (seed : Bytes) (t : Nat) (msg : Bytes),
    verify C d t (treeKey C d seed) msg (sigAt C d seed t msg) =
      .ok (C.verify (C.pub (leafSeed C d seed t)) msg (C.sign (leafSeed C d seed t) msg)) := by
  intro d
  induction d with
  | zero => intro seed t msg; simp [verify, treeKey, sigAt, leafSeed]
  | succ d ih =>
    intro seed t msg
    rw [sigAt, leafSeed, verify_step C d t _ msg _ _ _ (by split <;> exact sigAt_length C _ _ _ _) (treeKey_length C _ _) (treeKey_length C _ _)]
    rw [if_neg (by simp [hashPair, treeKey, splitLeft, splitRight])]
    by_cases h1 : t < 2 ^ d
    · simp only [if_pos h1]; exact ih _ _ _
    · simp only [if_neg h1]; exact ih _ _ _

theorem leafSeed_length (C : SigHash) : ∀ (d : Nat) (seed : Bytes) (t : Nat), seed.length = 32 → (leafSeed C d seed t).length = 32 := by
  intro d
  induction d with
  | zero => intro seed t h; exact h
  | succ d ih =>
    intro seed t _
    rw [leafSeed]
    split
    · exact ih _ _ (splitLeft_length C seed)
    · exact ih _ _ (splitRight_length C seed)

/-- **C22** over Ed25519, exactly: the KES signature of `msg` made in period `t` verifies if
and only if the Ed25519 nonce of the leaf's signature is not zero modulo the group order
(libsodium refuses the other signatures). -/
theorem C22_ed25519 (K : Curve) (h0 : K.smallOrder (K.enc 0) = true) (sha hash : Bytes → Bytes)
    (hh : ∀ x, (hash x).length = 32) (d : Nat) (hd : d < 32) (seed : Bytes) (hs : seed.length = 32)
    (t : Nat) (ht : t < 2 ^ d) (msg : Bytes) :
    ∃ k0 pk wiped k sig, keygen (sigHash K sha hash hh) d seed = .ok (k0, pk, wiped) ∧
      updates (sigHash K sha hash hh) d t k0 = .ok k ∧ sign (sigHash K sha hash hh) d k msg = .ok sig ∧
      (verify (sigHash K sha hash hh) d t pk msg sig = .ok true ↔
        ¬ ellL ∣ leNat (sha ((sha (seedAt (sigHash K sha hash hh) seed (leafPath d t))).drop 32 ++ msg))) := by
  refine ⟨_, _, _, _, _, keygen_ok _ d seed hs, updates_keyAt _ d seed hd hs t ht, sign_keyAt _ d seed t t msg hs, ?_⟩
  rw [verify_sigAt_eq, leafSeed_eq _ d seed t ht]
  have hl : (seedAt (sigHash K sha hash hh) seed (leafPath d t)).length = 32 := by
    rw [← leafSeed_eq _ d seed t ht]; exact leafSeed_length _ d seed t hs
  generalize seedAt (sigHash K sha hash hh) seed (leafPath d t) = leaf at hl
  constructor
  · intro h hz
    have := C71_zero_nonce_rejected K sha leaf msg hl h0 hz
    simp only [Out.ok.injEq] at h
    have h' : verifySignature K sha (Ed25519.publicKey K sha leaf) msg (Ed25519.sign K sha leaf msg) = true := h
    rw [this] at h'; cases h'
  · intro hz
    exact congrArg Out.ok (C71_sign_verifies K sha leaf msg hl hz).2

/-- The hypothesis on the curve is met. -/
example : toyCurve.smallOrder (toyCurve.enc 0) = true := by decide +kernel

end Cardano.Kes
