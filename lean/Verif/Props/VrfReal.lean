import Verif.Props.Edwards25519
import Verif.Props.Real
import Verif.Spec.Elligator

/-! # The VRF with SHA-512, edwards25519 and Elligator2 (C59)

No parameter is left: these are the proofs and outputs of libsodium's ECVRF-ED25519-SHA512-Elligator2. -/

namespace Cardano.Vrf

open Cardano Cardano.Ed Cardano.Spec Edwards

/-- **C59**: for every seed and message there is a proof, it verifies under the public key of the seed, and the output is the hash
of `8·x·8·P`, for `x` the secret scalar and `P` the point at `y`-coordinate `(u-1)/(u+1)`, `u` the Elligator2 image of the
hash of the message. -/
theorem C59_libsodium (seed msg : Bytes) (hs : seed.length = 32) :
    ∃ proof out P, constructProof elligator sha512 (fromSeed edwards25519 sha512 seed) msg = .ok proof ∧ proof.length = 80 ∧
      pubVerifyProof elligator sha512 (Ed25519.publicKey edwards25519 sha512 seed) msg proof = .ok true ∧
      proofToHash edwards25519 sha512 proof = .ok out ∧
      hash elligator sha512 (fromSeed edwards25519 sha512 seed) msg = .ok out ∧ out.length = 64 ∧
      edwards25519.dec (le32 (ellY ((leNat ((sha512 ([4, 1] ++ Ed25519.publicKey edwards25519 sha512 seed ++ msg)).take 32) %
        2 ^ 255 : Nat) : Fp)).val) = some P ∧
      out = sha512 ([4, 3] ++ edwards25519.enc ((8 * seedScalar sha512 seed) • (8 • P))) := by
  obtain ⟨proof, out, h1, h2, h3, _, h5, h6, _, h8, h9⟩ := C59_proof_verifies elligator sha512 seed msg hs sha512_length
  obtain ⟨P, hP, hm⟩ := elligator_total ((sha512 ([4, 1] ++ Ed25519.publicKey edwards25519 sha512 seed ++ msg)).take 32)
  refine ⟨proof, out, P, h1, h2, h3, h5, h6, h8, hP, ?_⟩
  rw [← hm]
  exact h9 _ _ rfl rfl

/-- A seed and a message. -/
example := C59_libsodium (List.replicate 32 7) [] rfl

end Cardano.Vrf
