import Verif.Vectors.Kes
import Verif.Lemmas.Kes

/-! # Test vectors: the KES key of depth 6

`key6.bin` of the Haskell node: the key made from the seed, 64 Ed25519 keys.  The tree is computed in eight parts, to bound
the memory of the check, and put together with the theorem about `keygen` (`Kes.keygen_ok`). -/

namespace Cardano.Vectors

open Cardano Cardano.Ed Cardano.Spec Cardano.Real Cardano.KesSpec Cardano.Kes

theorem treeKey_node (C : SigHash) (d : Nat) (s l r a b v : Bytes) (hl : C.hash (1 :: s) = l) (hr : C.hash (2 :: s) = r)
    (ha : treeKey C d l = a) (hb : treeKey C d r = b) (hv : C.hash (a ++ b) = v) : treeKey C (d + 1) s = v := by
  rw [treeKey, hl, hr, ha, hb, hv]

theorem layout_node (C : SigHash) (d : Nat) (s l r a b v : Bytes) (hl : C.hash (1 :: s) = l) (hr : C.hash (2 :: s) = r)
    (ha : treeKey C d l = a) (hb : treeKey C d r = b) (hv : layout C d l 0 = v) :
    layout C (d + 1) s 0 = v ++ r ++ (a ++ b) := by
  rw [layout_next, if_pos (Nat.two_pow_pos d), splitLeft, splitRight, hl, hr, ha, hb, hv]

/-- The seed of a node. -/
def sR : Bytes := kesSeed
/-- Its public key. -/
def kR : Bytes := beBytes 32 0x9b527f5907bd9ba20956d5b1db91d679b666b0c7e4c3a336eb6165ac58f99501
/-- The seed of a node. -/
def sN0 : Bytes := beBytes 32 0xd68765e5d1d7e32db3c7becdc3e02540ab4d56c93d3d9b1b10e99d4b904398cc
/-- Its public key. -/
def kN0 : Bytes := beBytes 32 0x0b318353c6c6ffc2b27907bb5118f52d9b6031e4f6e69d62d208553e35c099a9
/-- The seed of a node. -/
def sN1 : Bytes := beBytes 32 0xe78d6e26974a438f1376e3339d92f4e7e54944fa9e6e4f3f8c9b7ed1b46bbed1
/-- Its public key. -/
def kN1 : Bytes := beBytes 32 0x4c1665a7ebaccd3378175bc5490d9d5b414d66f1565909492ed415cbf6d7a35e
/-- The seed of a node. -/
def sN00 : Bytes := beBytes 32 0x4aa0c2886862f210a7cb69f476fbc7d4aa86f1c09c5ba1119743fb0349fb83d1
/-- Its public key. -/
def kN00 : Bytes := beBytes 32 0xdfce87cddaeda4f313f5b91fe4e8dc13fb889d42bf04ca64cbeca3e5e71ab683
/-- The seed of a node. -/
def sN01 : Bytes := beBytes 32 0x095ed01b1c3bdcf5b17055e8939283aad504f63ec0b6c29b4e7c5864df47815a
/-- Its public key. -/
def kN01 : Bytes := beBytes 32 0x41f2ea1e2f71a5bffd9756aefc230f1aad4381072bac475611ff3d64f9a6cfb5
/-- The seed of a node. -/
def sN10 : Bytes := beBytes 32 0x867af63c0b78fad95e08ad0d543c20dfd6434d12d510763f1e9493e89f9a29ef
/-- Its public key. -/
def kN10 : Bytes := beBytes 32 0x66c1855b1622e981512875a50928c2948c45e064d337d2a3483346b160862be7
/-- The seed of a node. -/
def sN11 : Bytes := beBytes 32 0x77c9f50d6e1acc60b9a901ef1ca9503c701293f1c6efc6b525db3b5c409ef6b0
/-- Its public key. -/
def kN11 : Bytes := beBytes 32 0xc060225e0276fd170e1745d051585b7c6eeae73188f62ee7407a511abca26337
/-- The seed of a node. -/
def sN000 : Bytes := beBytes 32 0x1da533913c42a3548b86a63c362c9b9a4dc142505ee3eb4a3b0998fe933629c2
/-- Its public key. -/
def kN000 : Bytes := beBytes 32 0xef212dd8e22cfa42d3a6048250603c7f743d15886fb60ff22407a37b1a66311c
/-- The seed of a node. -/
def sN001 : Bytes := beBytes 32 0x0abc61518b7113d686520c4c3216a273f6f2a1b0bb653cc96478e74db520a058
/-- Its public key. -/
def kN001 : Bytes := beBytes 32 0x97480108d12e8c8c278afcb368e61a57df16e94594246f9f3edbc4c4461ac662
/-- The seed of a node. -/
def sN010 : Bytes := beBytes 32 0x4a1025b7017a03dc3e91d66f51231735954d68d1feac0556edc6f9d207a3021d
/-- Its public key. -/
def kN010 : Bytes := beBytes 32 0xa8db74948b86724ac6f6a06f9144593e7b7fc82ace46889e23b8a995a7e0ca68
/-- The seed of a node. -/
def sN011 : Bytes := beBytes 32 0xc17c48540b045272fa63c0937c145a93feb7c41be9e5d38f947883f7839e216e
/-- Its public key. -/
def kN011 : Bytes := beBytes 32 0xd00d60406d5d36d470af3ff1b08719291e60bc21a392c1955cf7202a06283d8a
/-- The seed of a node. -/
def sN100 : Bytes := beBytes 32 0xddd14307dc95edc7a1abd383db4f953299a4a9572abf9a7bd60499b16318b9e4
/-- Its public key. -/
def kN100 : Bytes := beBytes 32 0xdc4126cbe75dfbb82a9ca26bf44090ebe61cb2f316855a9212f12aca9ca777c3
/-- The seed of a node. -/
def sN101 : Bytes := beBytes 32 0x75e269b20962b581709cfbef3f2185d8e5f2ef6bef4180bcd709a754e9f0b2ff
/-- Its public key. -/
def kN101 : Bytes := beBytes 32 0x156f8bb2ea2d4f470364396a8e92a7d1ffc1d7cebe91f883aede4e5811b1e359
/-- The seed of a node. -/
def sN110 : Bytes := beBytes 32 0x11999474174fe1c255625c95b0b176e1c4dd2d3320d4e368ad458fae9d5a3297
/-- Its public key. -/
def kN110 : Bytes := beBytes 32 0x1a370c3d7233142c88f11cf6fa0c7e9e4094b4db8b9a682fd4f57459b1a91a5a
/-- The seed of a node. -/
def sN111 : Bytes := beBytes 32 0x33590c8034e292e1f24c9d9d9d4e08def7a85a4c370eb55400131a8bbb6696a7
/-- Its public key. -/
def kN111 : Bytes := beBytes 32 0xe6c3da1f1278bc5bfaf5e763660f646a2309f25d44dd0d69ef343bbf725bfc66

theorem lR : kesSigFast.hash (1 :: sR) = sN0 := by decide +kernel
theorem rR : kesSigFast.hash (2 :: sR) = sN1 := by decide +kernel
theorem lN0 : kesSigFast.hash (1 :: sN0) = sN00 := by decide +kernel
theorem rN0 : kesSigFast.hash (2 :: sN0) = sN01 := by decide +kernel
theorem lN1 : kesSigFast.hash (1 :: sN1) = sN10 := by decide +kernel
theorem rN1 : kesSigFast.hash (2 :: sN1) = sN11 := by decide +kernel
theorem lN00 : kesSigFast.hash (1 :: sN00) = sN000 := by decide +kernel
theorem rN00 : kesSigFast.hash (2 :: sN00) = sN001 := by decide +kernel
theorem lN01 : kesSigFast.hash (1 :: sN01) = sN010 := by decide +kernel
theorem rN01 : kesSigFast.hash (2 :: sN01) = sN011 := by decide +kernel
theorem lN10 : kesSigFast.hash (1 :: sN10) = sN100 := by decide +kernel
theorem rN10 : kesSigFast.hash (2 :: sN10) = sN101 := by decide +kernel
theorem lN11 : kesSigFast.hash (1 :: sN11) = sN110 := by decide +kernel
theorem rN11 : kesSigFast.hash (2 :: sN11) = sN111 := by decide +kernel
theorem tN111 : treeKey kesSigFast 3 sN111 = kN111 := by decide +kernel
theorem tN110 : treeKey kesSigFast 3 sN110 = kN110 := by decide +kernel
theorem tN101 : treeKey kesSigFast 3 sN101 = kN101 := by decide +kernel
theorem tN100 : treeKey kesSigFast 3 sN100 = kN100 := by decide +kernel
theorem tN011 : treeKey kesSigFast 3 sN011 = kN011 := by decide +kernel
theorem tN010 : treeKey kesSigFast 3 sN010 = kN010 := by decide +kernel
theorem tN001 : treeKey kesSigFast 3 sN001 = kN001 := by decide +kernel
theorem tN000 : treeKey kesSigFast 3 sN000 = kN000 := by decide +kernel
theorem tN11 : treeKey kesSigFast 4 sN11 = kN11 :=
  treeKey_node _ _ _ _ _ _ _ _ lN11 rN11 tN110 tN111 (by decide +kernel)
theorem tN10 : treeKey kesSigFast 4 sN10 = kN10 :=
  treeKey_node _ _ _ _ _ _ _ _ lN10 rN10 tN100 tN101 (by decide +kernel)
theorem tN01 : treeKey kesSigFast 4 sN01 = kN01 :=
  treeKey_node _ _ _ _ _ _ _ _ lN01 rN01 tN010 tN011 (by decide +kernel)
theorem tN00 : treeKey kesSigFast 4 sN00 = kN00 :=
  treeKey_node _ _ _ _ _ _ _ _ lN00 rN00 tN000 tN001 (by decide +kernel)
theorem tN1 : treeKey kesSigFast 5 sN1 = kN1 :=
  treeKey_node _ _ _ _ _ _ _ _ lN1 rN1 tN10 tN11 (by decide +kernel)
theorem tN0 : treeKey kesSigFast 5 sN0 = kN0 :=
  treeKey_node _ _ _ _ _ _ _ _ lN0 rN0 tN00 tN01 (by decide +kernel)
theorem tR : treeKey kesSigFast 6 sR = kR :=
  treeKey_node _ _ _ _ _ _ _ _ lR rR tN0 tN1 (by decide +kernel)

theorem y3 : layout kesSigFast 3 sN000 0 = key6.take 320 := by decide +kernel
theorem y4 : layout kesSigFast 4 sN00 0 = key6.take 416 :=
  (layout_node _ _ _ _ _ _ _ _ lN00 rN00 tN000 tN001 y3).trans (by decide +kernel)
theorem y5 : layout kesSigFast 5 sN0 0 = key6.take 512 :=
  (layout_node _ _ _ _ _ _ _ _ lN0 rN0 tN00 tN01 y4).trans (by decide +kernel)
theorem y6 : layout kesSigFast 6 sR 0 = key6.take 608 :=
  (layout_node _ _ _ _ _ _ _ _ lR rR tN0 tN1 y5).trans (by decide +kernel)

/-- key6.bin -/
example : (Kes.keygen kesSig 6 kesSeed >>= fun r => .ok r.1) = .ok ⟨key6 ++ [0, 0, 0, 0], 0⟩ := by
  rw [← kesSigFast_eq, Kes.keygen_ok kesSigFast 6 kesSeed (by decide +kernel)]
  have h : layout kesSigFast 6 kesSeed 0 = key6 := y6.trans (by decide +kernel)
  rw [h]
  decide +kernel

end Cardano.Vectors
