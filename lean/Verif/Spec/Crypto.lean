import Verif.Model.Basic

/-! # Cryptographic primitives as parameters

The third-party primitives (Botan's hashes, libsodium's Ed25519) are not part of
/repo.  Theorems quantify over every implementation of the interfaces below; only the
fields listed (lengths, and "an honest signature verifies unless its nonce is zero") are
assumed.  `Props/Ed25519` shows that libsodium's Ed25519 meets the interface
(`Ed25519.sigHash`, for every curve and every hash of the right lengths). -/

namespace Cardano

/-- A 32-byte hash (Blake2b-256) together with an Ed25519-like signature scheme. -/
structure SigHash where
  /-- Blake2b(256) -/
  hash : Bytes → Bytes
  /-- public key of a 32-byte seed -/
  pub : Bytes → Bytes
  /-- signature of a message with a seed -/
  sign : Bytes → Bytes → Bytes
  /-- `verify pk msg sig` -/
  verify : Bytes → Bytes → Bytes → Bool
  /-- `zeroNonce seed msg`: the signature of `msg` has nonce zero.  libsodium's verification
  rejects such a signature, so nothing is assumed about it. -/
  zeroNonce : Bytes → Bytes → Prop
  hash_length : ∀ x, (hash x).length = 32
  pub_length : ∀ s, (pub s).length = 32
  sign_length : ∀ s m, (sign s m).length = 64
  verify_sign : ∀ s m, s.length = 32 → ¬ zeroNonce s m → verify (pub s) m (sign s m) = true

/-- A (cryptographically worthless) instance, used only to show that the interface can
be met and to exhibit concrete behaviours: the "hash" pads or cuts to 32 bytes, a seed
is its own public key, a signature is the seed followed by the padded message. -/
def toySigHash : SigHash where
  hash x := (x ++ List.replicate 32 0).take 32
  pub s := (s ++ List.replicate 32 0).take 32
  sign s m := (s ++ List.replicate 32 0).take 32 ++ (m ++ List.replicate 32 0).take 32
  verify pk _ sig := sig.take 32 == pk
  zeroNonce _ _ := False
  hash_length x := by simp
  pub_length s := by simp
  sign_length s m := by simp
  verify_sign s m h _ := by
    simp [List.take_append, h]

end Cardano
