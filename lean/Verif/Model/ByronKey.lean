import Verif.Model.Byron
import Verif.Model.Bip32

/-! # Model of Byron addresses made from keys

`ByronAddress::Attributes::fromKey`, `ByronAddress::fromRootKey` (src/address.cpp:474-518,
625-691).  The hashes and the cipher of Botan are parameters. -/

namespace Cardano.Byron

open Cbor Bip32 Ed

/-- The primitives of Botan used here: SHA-3(256), Blake2b(224) and ChaCha20Poly1305 (key,
nonce, text); an honest ciphertext opens to its plaintext and is 16 bytes longer. -/
structure Crypto where
  sha3 : Bytes → Bytes
  blake224 : Bytes → Bytes
  aead : (key nonce plain : Bytes) → Bytes
  aeadOpen : (key nonce cipher : Bytes) → Option Bytes
  blake224_length : ∀ x, (blake224 x).length = 28
  aead_length : ∀ k n p, (aead k n p).length = p.length + 16
  open_aead : ∀ k n p, aeadOpen k n (aead k n p) = some p

/-- `DP_KEY_ITERATIONS` (src/address.cpp:362). -/
def dpIterations : Nat := 500

/-- `DP_KEY_SIZE` (src/address.cpp:365). -/
def dpKeySize : Nat := 32

/-- `DP_SALT` (src/address.cpp:370-386). -/
def dpSalt : Bytes := [0x61, 0x64, 0x64, 0x72, 0x65, 0x73, 0x73, 0x2d, 0x68, 0x61, 0x73, 0x68, 0x69, 0x6e, 0x67]

/-- `DP_NONCE` (src/address.cpp:390-403). -/
def dpNonce : Bytes := [0x73, 0x65, 0x72, 0x6f, 0x6b, 0x65, 0x6c, 0x6c, 0x66, 0x6f, 0x72, 0x65]

/-- The attributes of an address (include/cardano/address.hpp:270-307). -/
structure Attrs where
  ciphertext : Bytes
  magic : Nat
  deriving DecidableEq, Repr

/-- `ByronAddress::Attributes::fromKey` (src/address.cpp:474-518); `magic` is a `uint32_t`. -/
def attrsFromKey (P : Prims) (Y : Crypto) (xpub : Pub) (path : List UInt32) (magic : Nat) : Attrs :=
  let key := P.pbkdf2 dpIterations xpub.xbytes dpSalt dpKeySize
  ⟨Y.aead key dpNonce (pathPlaintext (path.map UInt32.toNat)), magic⟩

/-- The attribute map of the address root (src/address.cpp:669-680). -/
def rootAttrs (a : Attrs) : List Item :=
  (if a.ciphertext.length > 0 then [.uint 1, .bstr (enc (.bstr a.ciphertext))] else []) ++
  (if a.magic ≠ 0 then [.uint 2, .bstr (enc (.uint a.magic))] else [])

/-- The bytes hashed into the address root (src/address.cpp:663-685). -/
def rootBytes (xpub : Pub) (a : Attrs) : Bytes :=
  enc (.array [.uint (typeToUint .pubkey), .array [.uint (typeToUint .pubkey), .bstr xpub.xbytes], .map (rootAttrs a)])

/-- `sha3_then_blake2b224` (src/address.cpp:625-637). -/
def sha3Blake (Y : Crypto) (data : Bytes) : Bytes := Y.blake224 (Y.sha3 data)

/-- `ByronAddress::fromRootKey` (src/address.cpp:639-691). -/
def fromRootKey (C : Curve) (P : Prims) (Y : Crypto) (xprv : Prv) (path : List UInt32) (magic : Nat) : Out Addr := do
  let xpub ← xprv.publicKey C
  let attrs := attrsFromKey P Y xpub path magic
  match path with
  | [i, j] =>
    let c ← xprv.deriveChild C P i .v1
    let c ← c.deriveChild C P j .v1
    let pub ← c.publicKey C
    return ⟨sha3Blake Y (rootBytes pub attrs), attrs.ciphertext, attrs.magic, .pubkey⟩
  | _ => .throw .invalidArgument

end Cardano.Byron
