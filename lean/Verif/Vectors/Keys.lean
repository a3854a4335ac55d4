import Verif.Props.Real
import Verif.Model.Bech32

/-! # Test vectors: keys and signatures

The model, run on the inputs of the library's own tests with the actual primitives, gives the expected outputs.  These
are **tests** of the model (and of the transcription of the primitives), not proofs of the
listed properties: they show that the model the theorems are about computes what the library is known to compute. -/

namespace Cardano.Vectors

open Cardano Cardano.Ed Cardano.Spec Cardano.Real Cardano.Bip32

/-- "abc" (FIPS 180-4 examples, RFC 7693 appendix A, FIPS 202 examples). -/
example : sha256 [97, 98, 99] = beBytes 32 0xba7816bf8f01cfea414140de5dae2223b00361a396177a9cb410ff61f20015ad := by decide +kernel
example : sha512 [97, 98, 99] = beBytes 64 0xddaf35a193617abacc417349ae20413112e6fa4e89a97ea20a9eeee64b55d39a2192992a274fc1a836ba3c23a3feebbd454d4423643ce80e2a9ac94fa54ca49f := by decide +kernel
example : Blake2b.hash 64 [97, 98, 99] = beBytes 64 0xba80a53f981c4d0d6a2797b69f12f6e94c212f14685ac4b74b12bb6fdbffa2d17d87c5392aab792dc252d5de4533cc9518d38aa8dbf1925ab92386edd4009923 := by decide +kernel
example : sha3_256 [97, 98, 99] = beBytes 32 0x3a985da74fe225b2045c172d6bd390bd855f086e3e9d525b46bfe24511431532 := by decide +kernel

/-- RFC 4231 test case 2. -/
example : hmacSha512 (ascii "Jefe") (ascii "what do ya want for nothing?") =
    beBytes 64 0x164b7a7bfcf819e2e395fbe73b56e0a387bd64222e831fd610270cd7ea2505549758bf75c05a994a6d034f65f8f0e6fdcaeab1a34d4a6b4b636e070a38bce737 := by
  decide +kernel

/-- PBKDF2 with two iterations. -/
example : pbkdf2Sha512 2 (ascii "password") (ascii "salt") 64 =
    beBytes 64 0xe1d9c16aa681708a45f5c7c4e215ceb66e011a2e9f0040713f18aefdb866d53cf76cab2868a39b9f7840edce4fef5a82be67335c77a6068e04112754f27ccf4e := by
  decide +kernel

/-- RFC 8439, 2.4.2, 2.5.2. -/
example : ChaCha.stream (beBytes 32 0x000102030405060708090a0b0c0d0e0f101112131415161718191a1b1c1d1e1f) (beBytes 12 0x000000000000004a00000000) 4 1 16 =
    beBytes 16 0x224f51f3401bd9e12fde276fb8631ded := by decide +kernel
example : poly1305 (beBytes 32 0x85d6be7857556d337f4452fe42d506a80103808afb0db2fd4abff6af4149f51b) (ascii "Cryptographic Forum Research Group") =
    beBytes 16 0xa8061dc1305136c6c22b8baf0c0127a9 := by decide +kernel

/-! ### test/test_cardano_ed25519_api.cpp -/

/-- The first key of RFC 8032, 7.1. -/
def prv1 : Bytes := beBytes 32 0x9d61b19deffd5a60ba844af492ec2cc44449c5697b326919703bac031cae7f60
/-- its public key -/
def pub1 : Bytes := beBytes 32 0xd75a980182b10ab7d54bfed3c964073a0ee172f3daa62325af021a68f707511a
/-- its signature of the empty message -/
def sig1 : Bytes := beBytes 64 0xe5564300c360ac729086e2cc806e828a84877f1eb8e5d974d873e065224901555fb8821590a33bacc61e39701cf9b46bd25bf5f0595bbe24655141438e7a100b
/-- The key of `testAdvancedSignature`. -/
def prv2 : Bytes := beBytes 32 0x72d4a564ca15499b5e4e75d8ac0f28217d32114a0c649a7c8eaadd0cc78c520b
/-- its public key -/
def pub2 : Bytes := beBytes 32 0xc766bd73837c4faa5215502f1efc90c003f711bbef55170091028a34493408a9
/-- the message of `testAdvancedSignature` -/
def msg2 : Bytes := beBytes 167 0x6c7e7b62eb244a45d78436e2970dcd6c0f7db82297a86140ea58dd22c2195adbc956d4c4ec05354b21efe24cfcfe10e17622368848180d2c4680cc215e8ceea6cce222161f1e092239253b9746f7887df2425ab5a880bdba98153be786dc838cbeca016b1d06524bd6bfba809a8bb37adab15d42415f86ec0358365ea87b8150b05441d9d49846871485caae6de359736c27189736d8f1765f3e5c5f6b92168396390bee94cfbd
/-- its signature -/
def sig2 : Bytes := beBytes 64 0x8fc4f179330b642dd86ca9362651b83b006d8375ccef811d3c6706f91594651df2769953723046ccb9bfe66a667e0d11fc3ea2d8226234fdd5164765260f7b05

example : Ed25519.publicKey edwards25519 sha512 prv1 = pub1 := by rw [← edFast_eq]; decide +kernel
example : Ed25519.sign edwards25519 sha512 prv1 [] = sig1 := by rw [← edFast_eq]; decide +kernel
example : Ed25519.verifySignature edwards25519 sha512 pub1 [] sig1 = true := by rw [← edFast_eq]; decide +kernel
example : Ed25519.verifySignature edwards25519 sha512 pub1 [0] sig1 = false := by rw [← edFast_eq]; decide +kernel
example : Ed25519.publicKey edwards25519 sha512 prv2 = pub2 := by rw [← edFast_eq]; decide +kernel
example : Ed25519.sign edwards25519 sha512 prv2 msg2 = sig2 := by rw [← edFast_eq]; decide +kernel
example : Ed25519.verifySignature edwards25519 sha512 pub2 msg2 sig2 = true := by rw [← edFast_eq]; decide +kernel

/-! ### test/test_cardano_bip32_ed25519_api.cpp -/

/-- `root_xsk_base16` -/
def rootXsk : Bytes := beBytes 96 0xb804910d10b2261742c630d94b5e1ecc2075670438ba5fd329f65fd4b547a943110c92c9f17b44b332d9d7c1cea6f3108ad99546c6d31dcc41161f3cf529a9e82d186a96f0f3823e498778084c6625a413454424114e532c84d760201df08cdb

/-- `root_xsk_bech32` -/
def rootXskText : Bytes := ascii "root_xsk1hqzfzrgskgnpwskxxrv5khs7ess82ecy8za9l5ef7e0afd2849p3zryje8chk39nxtva0sww5me3pzkej4rvd5cae3q3v8eu7556n6pdrp4fdu8nsglynpmcppxxvfdyzdz5gfq3fefjepxhvqspmuyvmvqg8983"

example : Bech32.decode rootXskText = .ok (ascii "root_xsk", rootXsk) := by decide +kernel
example : Bech32.encode (ascii "root_xsk") (prvOfX rootXsk).xbytes = .ok rootXskText := by decide +kernel

/-- The account key of `testBasicKeyDerivation`, path 1852H/1815H/0H. -/
def account : Prv := prvOfX (beBytes 96 0xa0977e9dd0f0242cd19b6d9c0bbdad1317f44176478b077457c53e69c147a943f1c770919e756f1b696f855792c0acac4a7270f02aae5de61c590127bd098f34f51f70f13716b72fd107bb7dbf945600a28378e5ee994fdd56e33a2980eee510)

/-- Its derivation. -/
def deriveAccount (C : Curve) : Out Prv := do
  let a ← (prvOfX rootXsk).deriveChild C prims (hardenIndex 1852) .v2
  let b ← a.deriveChild C prims (hardenIndex 1815) .v2
  b.deriveChild C prims (hardenIndex 0) .v2

example : deriveAccount edwards25519 = .ok account := by rw [← edFast_eq]; decide +kernel

/-- A public key two soft steps below the account. -/
def leaf (C : Curve) (role index : UInt32) : Out Pub := do
  let p ← account.publicKey C
  let r ← p.deriveChild C prims role .v2
  r.deriveChild C prims index .v2

/-- The text of such a key. -/
def leafText (C : Curve) (hrp : String) (role : UInt32) : Out Bytes := do
  let k ← leaf C role 0
  Bech32.encode (ascii hrp) k.xbytes

example : leafText edwards25519 "addr_xvk" 0 =
    .ok (ascii "addr_xvk1grvg8qzmkmw2n0dm4pd0h3j4dv6yglyammyp733eyj629dc3z28v6wk22nfmru6xz0vl2s3y5xndyd57fu70hrt84c6zkvlwx6fdl7ct9j7yc") := by
  rw [← edFast_eq]; decide +kernel

example : leafText edwards25519 "stake_xvk" 2 =
    .ok (ascii "stake_xvk1658atzttunamzn80204khrg0qfdk5nvmrutlmmpg7xlsyaggwa7h9z4smmeqsvs67qhyqmc2lqa0vy36rf2la74ym8a5p93zp4qtpuq6ky3ve") := by
  rw [← edFast_eq]; decide +kernel

/-- The same signatures through `bip32_ed25519::PrivateKey::fromSeed`. -/
def bipSign (C : Curve) (seed msg : Bytes) : Out (Bytes × Bytes × Bool) := do
  let k ← fromSeed prims seed
  let s ← k.sign C prims msg
  let p ← k.publicKey C
  return (p.key, s, p.verify C prims msg s)

example : bipSign edwards25519 prv1 [] = .ok (pub1, sig1, true) := by rw [← edFast_eq]; decide +kernel
example : bipSign edwards25519 prv2 msg2 = .ok (pub2, sig2, true) := by rw [← edFast_eq]; decide +kernel

end Cardano.Vectors
