import Verif.Model.Bip32
import Verif.Spec.Sodium

/-! # Model of `src/ed25519.cpp`, `src/vrf.cpp` and their headers

Keys are byte lists; the fixed extents of the C++ arrays are length hypotheses of the
theorems.  `generate()` is `ofSeed` of 32 random bytes. -/

namespace Cardano.Ed25519

open Cardano Cardano.Ed

/-- `PrivateKey::publicKey` (src/ed25519.cpp:62-68). -/
def publicKey (C : Curve) (sha : Bytes → Bytes) (prv : Bytes) : Bytes := (seedKeypair C sha prv).1

/-- `PrivateKey::sign` (src/ed25519.cpp:70-82). -/
def sign (C : Curve) (sha : Bytes → Bytes) (prv msg : Bytes) : Bytes :=
  signDetached C sha msg (seedKeypair C sha prv).2

/-- `PublicKey::verifySignature` (src/ed25519.cpp:39-47). -/
def verifySignature (C : Curve) (sha : Bytes → Bytes) (pub msg sig : Bytes) : Bool :=
  verifyDetached C sha sig msg pub

/-- `PrivateKey::generate` (src/ed25519.cpp:54-60): `crypto_sign_keypair` draws a random seed;
the first 32 bytes of its secret key are kept. -/
def generate (C : Curve) (sha : Bytes → Bytes) (random : Bytes) : Bytes := ((seedKeypair C sha random).2).take 32

end Cardano.Ed25519

namespace Cardano.Vrf

open Cardano Cardano.Ed

/-- `VRFSecretKey::fromSeed` (src/vrf.cpp:57-64): the whole libsodium secret key. -/
def fromSeed (C : Curve) (sha : Bytes → Bytes) (seed : Bytes) : Bytes := (seedKeypair C sha seed).2

/-- `VRFSecretKey::generate` (src/vrf.cpp:50-55). -/
def generate (C : Curve) (sha : Bytes → Bytes) (random : Bytes) : Bytes :=
  fromSeed C sha (Ed25519.generate C sha random)

/-- `VRFSecretKey::publicKey` (src/vrf.cpp:66-75): the stored second half. -/
def publicKey (prv : Bytes) : Bytes := (prv.drop 32).take 32

/-- `VRFSecretKey::isValid` (src/vrf.cpp:77-83). -/
def isValid (C : Curve) (sha : Bytes → Bytes) (prv : Bytes) : Bool :=
  prv.drop (prv.length - 32) == Ed25519.publicKey C sha (prv.take 32)

/-- `VRFSecretKey::sign` (src/vrf.cpp:85-91). -/
def sign (C : Curve) (sha : Bytes → Bytes) (prv msg : Bytes) : Bytes := Ed25519.sign C sha (prv.take 32) msg

/-- `VRFSecretKey::constructProof` (src/vrf.cpp:93-105). -/
def constructProof {C : Curve} (G : Elligator C) (sha : Bytes → Bytes) (prv msg : Bytes) : Out Bytes :=
  match vrfProve G sha prv msg with
  | some p => .ok p
  | none => .throw .runtimeError

/-- `VRFPublicKey::verifyProof` (src/vrf.cpp:32-43).  The span is passed by its pointer only;
libsodium reads 80 bytes of it. -/
def pubVerifyProof {C : Curve} (G : Elligator C) (sha : Bytes → Bytes) (pub msg proof : Bytes) : Out Bool :=
  if proof.length < 80 then .ub else .ok (vrfVerify G sha pub (proof.take 80) msg).isSome

/-- `VRFSecretKey::verifyProof` (src/vrf.cpp:107-114). -/
def verifyProof {C : Curve} (G : Elligator C) (sha : Bytes → Bytes) (prv msg proof : Bytes) : Out Bool :=
  pubVerifyProof G sha (publicKey prv) msg proof

/-- `VRFSecretKey::proofToHash` (src/vrf.cpp:116-127). -/
def proofToHash (C : Curve) (sha : Bytes → Bytes) (proof : Bytes) : Out Bytes :=
  match vrfProofToHash C sha proof with
  | some h => .ok h
  | none => .throw .runtimeError

/-- `VRFSecretKey::hash` (src/vrf.cpp:129-133). -/
def hash {C : Curve} (G : Elligator C) (sha : Bytes → Bytes) (prv msg : Bytes) : Out Bytes := do
  let p ← constructProof G sha prv msg
  proofToHash C sha p

end Cardano.Vrf
