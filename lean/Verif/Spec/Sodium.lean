import Verif.Spec.Ed25519

/-! # libsodium's Ed25519 signing and its ECVRF (ietfdraft03)

libsodium is not part of /repo.  The functions called by `src/ed25519.cpp` and `src/vrf.cpp`
are written here from RFC 8032 and from the IETF draft `draft-irtf-cfrg-vrf-03`
(ECVRF-ED25519-SHA512-Elligator2), with the curve and SHA-512 as parameters. -/

namespace Cardano.Ed

open Cardano

/-- RFC 8032, 5.1.5, step 2: the 32-byte little-endian number with bits 0, 1, 2 and 255
cleared and bit 254 set. -/
def clampNat (n : Nat) : Nat := 2 ^ 254 + n % 2 ^ 254 / 8 * 8

/-- The secret scalar of a seed (RFC 8032, 5.1.5). -/
def seedScalar (sha : Bytes → Bytes) (seed : Bytes) : Nat := clampNat (leNat ((sha seed).take 32))

/-- The second half of the hashed seed, the "prefix" of RFC 8032, 5.1.6. -/
def seedPrefix (sha : Bytes → Bytes) (seed : Bytes) : Bytes := (sha seed).drop 32

/-- The public key of a seed. -/
def seedPub (C : Curve) (sha : Bytes → Bytes) (seed : Bytes) : Bytes := C.enc (seedScalar sha seed • C.B)

/-- `crypto_sign_seed_keypair` (= `crypto_sign_ed25519_seed_keypair`): public key and the
64-byte secret key `seed ‖ public key`. -/
def seedKeypair (C : Curve) (sha : Bytes → Bytes) (seed : Bytes) : Bytes × Bytes :=
  (seedPub C sha seed, seed ++ seedPub C sha seed)

/-- `crypto_sign_detached` with the 64-byte secret key `sk`: the key used inside the hash is
the second half of `sk`, it is not recomputed. -/
def signDetached (C : Curve) (sha : Bytes → Bytes) (msg sk : Bytes) : Bytes :=
  let seed := sk.take 32
  let pk := sk.drop 32
  let r := leNat (sha (seedPrefix sha seed ++ msg)) % ellL
  let rEnc := C.enc (r • C.B)
  let h := leNat (sha (rEnc ++ pk ++ msg)) % ellL
  rEnc ++ le32 ((h * seedScalar sha seed + r) % ellL)

/-! ### ECVRF -/

/-- Elligator2 with cofactor clearing, on the first 32 bytes of a hash: a point of the
prime-order subgroup. -/
structure Elligator (C : Curve) where
  map : Bytes → C.Pt
  order : ∀ b, ellL • map b = 0

/-- `ge25519_is_canonical` and `ge25519_frombytes`. -/
def stringToPoint (C : Curve) (b : Bytes) : Option C.Pt := if C.canonical b then C.dec b else none

/-- `hash_to_curve`: suite byte 4, domain byte 1. -/
def vrfHashToCurve {C : Curve} (G : Elligator C) (sha : Bytes → Bytes) (y : C.Pt) (msg : Bytes) : C.Pt :=
  G.map ((sha ([4, 1] ++ C.enc y ++ msg)).take 32)

/-- `hash_points`: the 16-byte challenge. -/
def vrfChallenge (C : Curve) (sha : Bytes → Bytes) (a b c d : C.Pt) : Bytes :=
  (sha ([4, 2] ++ C.enc a ++ C.enc b ++ C.enc c ++ C.enc d)).take 16

/-- `crypto_vrf_ietfdraft03_prove` with the 64-byte secret key `sk` (`none`: status -1). -/
def vrfProve {C : Curve} (G : Elligator C) (sha : Bytes → Bytes) (sk msg : Bytes) : Option Bytes :=
  match stringToPoint C (sk.drop 32) with
  | none => none
  | some y =>
    let x := seedScalar sha (sk.take 32)
    let h := vrfHashToCurve G sha y msg
    let gamma := x • h
    let k := leNat (sha (seedPrefix sha (sk.take 32) ++ C.enc h)) % ellL
    let c := vrfChallenge C sha h gamma (k • C.B) (k • h)
    some (C.enc gamma ++ c ++ le32 ((leNat c * x + k) % ellL))

/-- `crypto_vrf_ietfdraft03_proof_to_hash` on an 80-byte proof. -/
def vrfProofToHash (C : Curve) (sha : Bytes → Bytes) (proof : Bytes) : Option Bytes :=
  match stringToPoint C (proof.take 32) with
  | none => none
  | some gamma => some (sha ([4, 3] ++ C.enc (8 • gamma)))

/-- `crypto_vrf_ietfdraft03_verify` on an 80-byte proof: the output if the proof is valid. -/
def vrfVerify {C : Curve} (G : Elligator C) (sha : Bytes → Bytes) (pk proof msg : Bytes) : Option Bytes :=
  if C.smallOrder pk then none
  else match stringToPoint C pk, stringToPoint C (proof.take 32) with
    | some y, some gamma =>
      let c := (proof.drop 32).take 16
      let s := leNat ((proof.drop 48).take 32) % ellL
      let h := vrfHashToCurve G sha y msg
      if vrfChallenge C sha h gamma (s • C.B - leNat c • y) (s • h - leNat c • gamma) = c then
        vrfProofToHash C sha proof
      else none
    | _, _ => none

end Cardano.Ed
