import Verif.Lemmas.EdFast
import Verif.Spec.Blake2b
import Verif.Spec.ChaCha
import Verif.Spec.Sha3
import Verif.Props.Ed25519
import Verif.Model.ByronKey
import Verif.Model.StakePool
import Verif.Model.TxBuilder

/-! # The library with its actual primitives

Every theorem about keys, addresses, transactions and pools is stated for all curves and all hash functions of the
right output sizes.  Here they are instantiated: edwards25519, SHA-2, HMAC, PBKDF2, BLAKE2b, ChaCha20(-Poly1305), SHA-3 and
Ed25519, as written in `Verif.Spec.*` from the standards.  The `…Fast` instances are equal to
the real ones and can be evaluated by Lean's kernel. -/

namespace Cardano.Real

open Cardano Cardano.Ed Cardano.Spec

/-- Botan's functions. -/
def prims : Bip32.Prims where
  hmac := hmacSha512
  sha512 := sha512
  sha256 := sha256
  blake256 := blake2b256
  pbkdf2 := pbkdf2Sha512
  chacha := chacha20
  hmac_length := hmacSha512_length
  sha512_length := sha512_length
  sha256_length := sha256_length
  blake256_length := blake2b256_length
  pbkdf2_length := pbkdf2Sha512_length
  chacha_length := chacha20_length

/-- The primitives of Byron addresses. -/
def byron : Byron.Crypto where
  sha3 := sha3_256
  blake224 := blake2b224
  aead := aeadSeal
  aeadOpen := aeadOpen
  blake224_length := blake2b224_length
  aead_length := aeadSeal_length
  open_aead := aeadOpen_aeadSeal

/-- The primitives of the stake pool classes. -/
noncomputable def pool : Pool.Env := ⟨edwards25519, prims, blake2b224, blake2b224_length⟩

/-- `pool`, ready to run. -/
def poolFast : Pool.Env := ⟨edFast, prims, blake2b224, blake2b224_length⟩

theorem poolFast_eq : poolFast = pool := by rw [poolFast, edFast_eq, pool]

/-- The primitives of transactions. -/
noncomputable def tx : TxBuilder.Env := ⟨Ed25519.sigHash edwards25519 sha512 blake2b256 blake2b256_length, edwards25519, prims⟩

/-- `tx`, ready to run. -/
def txFast : TxBuilder.Env := ⟨Ed25519.sigHash edFast sha512 blake2b256 blake2b256_length, edFast, prims⟩

theorem txFast_eq : txFast = tx := by rw [txFast, edFast_eq, tx]

end Cardano.Real
