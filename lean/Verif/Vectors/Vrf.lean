import Verif.Vectors.Mnemonic
import Verif.Spec.Elligator
import Verif.Model.Ed25519

/-! # Test vectors: VRF

test/test_cardano_vrf_api.cpp (draft-irtf-cfrg-vrf-03, A.4) and the two blocks of test_cardano_stake_pool_api.cpp.  Tests of the
model, as in `Verif.Vectors.Keys`. -/

namespace Cardano.Vectors

open Cardano Cardano.Ed Cardano.Spec Cardano.Real

/-- Everything the test computes from a seed and a message: public key, proof, hash of the proof. -/
def vrfAll {C : Curve} (G : Elligator C) (seed msg : Bytes) : Out (Bytes × Bytes × Bytes) := do
  let prv := Vrf.fromSeed C sha512 seed
  let proof ← Vrf.constructProof G sha512 prv msg
  let h ← Vrf.proofToHash C sha512 proof
  return (Vrf.publicKey prv, proof, h)

example : vrfAll elligator (beBytes 32 0x9d61b19deffd5a60ba844af492ec2cc44449c5697b326919703bac031cae7f60) [] =
    .ok (beBytes 32 0xd75a980182b10ab7d54bfed3c964073a0ee172f3daa62325af021a68f707511a,
      beBytes 80 0xb6b4699f87d56126c9117a7da55bd0085246f4c56dbc95d20172612e9d38e8d7ca65e573a126ed88d4e30a46f80a666854d675cf3ba81de0de043c3774f061560f55edc256a787afe701677c0f602900,
      beBytes 64 0x5b49b554d05c0cd5a5325376b3387de59d924fd1e13ded44648ab33c21349a603f25b84ec5ed887995b33da5e3bfcb87cd2f64521c4c62cf825cffabbe5d31cc) :=
  (elligatorFast_eq fun _ G => vrfAll G _ _).symm.trans (by decide +kernel)
example : vrfAll elligator (beBytes 32 0x4ccd089b28ff96da9db6c346ec114e0f5b8a319f35aba624da8cf6ed4fb8a6fb) [0x72] =
    .ok (beBytes 32 0x3d4017c3e843895a92b70aa74d1b7ebc9c982ccf2ec4968cc0cd55f12af4660c,
      beBytes 80 0xae5b66bdf04b4c010bfe32b2fc126ead2107b697634f6f7337b9bff8785ee111200095ece87dde4dbe87343f6df3b107d91798c8a7eb1245d3bb9c5aafb093358c13e6ae1111a55717e895fd15f99f07,
      beBytes 64 0x94f4487e1b2fec954309ef1289ecb2e15043a2461ecc7b2ae7d4470607ef82eb1cfa97d84991fe4a7bfdfd715606bc27e2967a6c557cfb5875879b671740b7d8) :=
  (elligatorFast_eq fun _ G => vrfAll G _ _).symm.trans (by decide +kernel)
example : vrfAll elligator (beBytes 32 0xc5aa8df43f9f837bedb7442f31dcb7b166d38535076f094b85ce3a2e0b4458f7) [0xaf, 0x82] =
    .ok (beBytes 32 0xfc51cd8e6218a1a38da47ed00230f0580816ed13ba3303ac5deb911548908025,
      beBytes 80 0xdfa2cba34b611cc8c833a6ea83b8eb1bb5e2ef2dd1b0c481bc42ff36ae7847f6ab52b976cfd5def172fa412defde270c8b8bdfbaae1c7ece17d9833b1bcf31064fff78ef493f820055b561ece45e1009,
      beBytes 64 0x2031837f582cd17a9af9e0c7ef5a6540e3453ed894b62c293686ca3c1e319dde9d0aa489a4b59a9594fc2328bc3deff3c8a0929a369a72b1180a596e016b5ded) :=
  (elligatorFast_eq fun _ G => vrfAll G _ _).symm.trans (by decide +kernel)

/-- The second proof verifies; with a bit flipped in `gamma`, `c` or `s` it does not, nor for another message. -/
def vrfPub2 : Bytes := beBytes 32 0x3d4017c3e843895a92b70aa74d1b7ebc9c982ccf2ec4968cc0cd55f12af4660c

example : Vrf.pubVerifyProof elligator sha512 vrfPub2 [0x72] (beBytes 80 0xae5b66bdf04b4c010bfe32b2fc126ead2107b697634f6f7337b9bff8785ee111200095ece87dde4dbe87343f6df3b107d91798c8a7eb1245d3bb9c5aafb093358c13e6ae1111a55717e895fd15f99f07) = .ok true :=
  (elligatorFast_eq fun _ G => Vrf.pubVerifyProof G sha512 vrfPub2 _ _).symm.trans (by decide +kernel)
example : Vrf.pubVerifyProof elligator sha512 vrfPub2 [0x72] (beBytes 80 0xaf5b66bdf04b4c010bfe32b2fc126ead2107b697634f6f7337b9bff8785ee111200095ece87dde4dbe87343f6df3b107d91798c8a7eb1245d3bb9c5aafb093358c13e6ae1111a55717e895fd15f99f07) = .ok false :=
  (elligatorFast_eq fun _ G => Vrf.pubVerifyProof G sha512 vrfPub2 _ _).symm.trans (by decide +kernel)
example : Vrf.pubVerifyProof elligator sha512 vrfPub2 [0x72] (beBytes 80 0xae5b66bdf04b4c010bfe32b2fc126ead2107b697634f6f7337b9bff8785ee111210095ece87dde4dbe87343f6df3b107d91798c8a7eb1245d3bb9c5aafb093358c13e6ae1111a55717e895fd15f99f07) = .ok false :=
  (elligatorFast_eq fun _ G => Vrf.pubVerifyProof G sha512 vrfPub2 _ _).symm.trans (by decide +kernel)
example : Vrf.pubVerifyProof elligator sha512 vrfPub2 [0x72] (beBytes 80 0xae5b66bdf04b4c010bfe32b2fc126ead2107b697634f6f7337b9bff8785ee111200095ece87dde4dbe87343f6df3b107d81798c8a7eb1245d3bb9c5aafb093358c13e6ae1111a55717e895fd15f99f07) = .ok false :=
  (elligatorFast_eq fun _ G => Vrf.pubVerifyProof G sha512 vrfPub2 _ _).symm.trans (by decide +kernel)
example : Vrf.pubVerifyProof elligator sha512 vrfPub2 [0x72] (beBytes 80 0xae5b66bdf04b4c010bfe32b2fc126ead2107b697634f6f7337b9bff8785ee111200095ece87dde4dbe87343f6df3b107d91798c8a7eb1245d3bb9c5aafb093358c13e6ae1111a55717e895fd15f99f87) = .ok false :=
  (elligatorFast_eq fun _ G => Vrf.pubVerifyProof G sha512 vrfPub2 _ _).symm.trans (by decide +kernel)
example : Vrf.pubVerifyProof elligator sha512 vrfPub2 [] (beBytes 80 0xae5b66bdf04b4c010bfe32b2fc126ead2107b697634f6f7337b9bff8785ee111200095ece87dde4dbe87343f6df3b107d91798c8a7eb1245d3bb9c5aafb093358c13e6ae1111a55717e895fd15f99f07) = .ok false :=
  (elligatorFast_eq fun _ G => Vrf.pubVerifyProof G sha512 vrfPub2 _ _).symm.trans (by decide +kernel)

/-- Block 1 of the VIPER pool. -/
example : Vrf.pubVerifyProof elligator sha512 (beBytes 32 0x80e93aa1adf05f89303e22662a3e33b68e5b32fbdc172abd50a87f227cd8a48b) (beBytes 32 0x4d90a87611d24e00e02c98651e7173993523a9e829a77b5a5181356f6cf921e3)
    (beBytes 80 0x8865123b57c76cf4ee6049e62376fb1b817c1c68adfd11b2a036aa2b44d93a82432941185f3cb51e2f8459ca3596ffaabe8438609c10fad0d5b03d0a04b415af42a3a69cab55a5f1353164b513d6db03) = .ok true :=
  (elligatorFast_eq fun _ G => Vrf.pubVerifyProof G sha512 _ _ _).symm.trans (by decide +kernel)

/-- Block 2 of the VIPER pool. -/
example : Vrf.pubVerifyProof elligator sha512 (beBytes 32 0x80e93aa1adf05f89303e22662a3e33b68e5b32fbdc172abd50a87f227cd8a48b) (beBytes 32 0x929cf76933eccbedbc91e8430677ea7bdc19ef185653746a90c250c9048eef07)
    (beBytes 80 0xc2620a04b419e7de2a62bf5e7ebd44751d6b72878e917732e95da1900424e51a34fa951d736994cf11575ca28a4ba133aa95e1481be373591a486c92081eef2cd6ff950a0e1c29142b9caf38fd15bf02) = .ok true :=
  (elligatorFast_eq fun _ G => Vrf.pubVerifyProof G sha512 _ _ _).symm.trans (by decide +kernel)

end Cardano.Vectors
