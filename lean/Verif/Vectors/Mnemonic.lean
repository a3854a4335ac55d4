import Verif.Vectors.KesUpdate
import Verif.Model.AddressKeys
import Verif.Model.Mnemonic

/-! # Test vectors: mnemonics

test/test_cardano_mnemonic_api.cpp, and the CIP-1853 pool key of test_cardano_stake_pool_api.cpp.  Tests of the model, as in
`Verif.Vectors.Keys`. -/

namespace Cardano.Vectors

open Cardano Cardano.Ed Cardano.Spec Cardano.Real Cardano.Bip32 Cardano.Address

/-- The phrase of `testMnemonicGeneration`. -/
def text1 : Bytes := ascii "write maid rib female drama awake release inhale weapon crush mule jump sound erupt stereo"
/-- Its words and indexes. -/
def mn1 : Mnemonic.Mn := ⟨Mnemonic.splitSpace text1, [2036, 1072, 1479, 679, 529, 129, 1449, 925, 1986, 424, 1162, 967, 1662, 615, 1708]⟩

example : Mnemonic.ofString .english text1 = .ok mn1 := by decide +kernel
example : Mnemonic.checksum mn1 = .ok 0x0c := by decide +kernel
example : Mnemonic.verifyChecksum sha256 mn1 = .ok true := by decide +kernel
example : Mnemonic.toSeed mn1 = .ok (beBytes 20 0xfe90c2e3aa7422206d4b9df846a2453c7cfc99f5) := by decide +kernel
example : Mnemonic.generate sha256 .english 15 (beBytes 20 0xfe90c2e3aa7422206d4b9df846a2453c7cfc99f5) = .ok mn1 := by decide +kernel

/-- The primitives with the two PBKDF2 results needed below written down (4096 iterations are too many to run in the kernel;
the values were computed with another implementation of PBKDF2). -/
def mnemonicPrims : Prims := { prims with
  pbkdf2 := fun c pass salt n =>
    if c = 4096 ∧ pass = [] ∧ n = 96 ∧ salt = beBytes 20 0x4f45865681e8d621aadcd2ae156590d20538a6bc then
      beBytes n 0xb904910d10b2261742c630d94b5e1ecc2075670438ba5fd329f65fd4b547a9a3110c92c9f17b44b332d9d7c1cea6f3108ad99546c6d31dcc41161f3cf529a9e82d186a96f0f3823e498778084c6625a413454424114e532c84d760201df08cdb
    else beBytes n 0xa3b01ad387b9e888d2efe4d0d279dd455b80254e4d9e226ebc1be59d4237f2d4735f1c93adccf0ebbbe38e4e80541738ef70fe6b619f42c0a045aec363b10f92f0df7f10b015ae8f3ec7686412ac0711e4ca301bc57b0c7b1dab9a2501eeb56b
  pbkdf2_length := fun c _ _ n => by split <;> exact beBytes_length n _ }

/-- The phrase of `testMnemonicToAddress` and `testMnemonicToStakeAddress`. -/
def text2 : Bytes := ascii "exercise club noble adult miracle awkward problem olympic puppy private goddess piano fatal fashion vacuum"
/-- Its words and indexes. -/
def mn2 : Mnemonic.Mn := ⟨Mnemonic.splitSpace text2, [634, 353, 1197, 30, 1131, 134, 1371, 1234, 1392, 1369, 801, 1312, 668, 666, 1924]⟩

example : Mnemonic.ofString .english text2 = .ok mn2 := by decide +kernel

/-- The root key. -/
def root2 : Out Prv := fromMnemonic mnemonicPrims mn2 []

example : (root2 >>= fun r => Bech32.encode (ascii "root_xsk") r.xbytes) =
    .ok (ascii "root_xsk1hqzfzrgskgnpwskxxrv5khs7ess82ecy8za9l5ef7e0afd2849p3zryje8chk39nxtva0sww5me3pzkej4rvd5cae3q3v8eu7556n6pdrp4fdu8nsglynpmcppxxvfdyzdz5gfq3fefjepxhvqspmuyvmvqg8983") := by
  decide +kernel

/-- The account's public key. -/
def account2 (C : Curve) : Out Pub := do
  let r ← root2
  let k ← r.deriveChild C mnemonicPrims (hardenIndex 1852) .v2
  let k ← k.deriveChild C mnemonicPrims (hardenIndex 1815) .v2
  let k ← k.deriveChild C mnemonicPrims (hardenIndex 0) .v2
  k.publicKey C

/-- Its value. -/
def acct2 : Pub := ⟨beBytes 32 0x42bd48638d8c689c9012b9c1fd97d15f9aa5f4803d3dcd12ecfb5ef789df2986, beBytes 32 0xf51f70f13716b72fd107bb7dbf945600a28378e5ee994fdd56e33a2980eee510⟩

example : account2 edwards25519 = .ok acct2 := by rw [← edFast_eq]; decide +kernel

/-- Payment key, stake key and the addresses. -/
def wallet2 (C : Curve) : Out (Bytes × Bytes × Bytes × Bytes × Bytes) := do
  let a : Pub := acct2
  let p ← a.deriveChild C mnemonicPrims 0 .v2
  let p ← p.deriveChild C mnemonicPrims 0 .v2
  let s ← a.deriveChild C mnemonicPrims 2 .v2
  let s ← s.deriveChild C mnemonicPrims 0 .v2
  let pk ← Bech32.encode (ascii "addr_xvk") p.xbytes
  let sk ← Bech32.encode (ascii "stake_xvk") s.xbytes
  let e ← enterpriseToBech32 (enterpriseFromKey blake2b224 .testnet p)
  let b ← (Base.fromKeys blake2b224 .testnet p s).toBech32
  let r ← rewardsToBech32 (rewardsFromKey blake2b224 .testnet s)
  return (pk, sk, e, b, r)

example : wallet2 edwards25519 =
    .ok (ascii "addr_xvk1grvg8qzmkmw2n0dm4pd0h3j4dv6yglyammyp733eyj629dc3z28v6wk22nfmru6xz0vl2s3y5xndyd57fu70hrt84c6zkvlwx6fdl7ct9j7yc",
      ascii "stake_xvk1658atzttunamzn80204khrg0qfdk5nvmrutlmmpg7xlsyaggwa7h9z4smmeqsvs67qhyqmc2lqa0vy36rf2la74ym8a5p93zp4qtpuq6ky3ve",
      ascii "addr_test1vp2fg770ddmqxxduasjsas39l5wwvwa04nj8ud95fde7f7guscp6v",
      ascii "addr_test1qp2fg770ddmqxxduasjsas39l5wwvwa04nj8ud95fde7f70k6tew7wrnx0s4465nx05ajz890g44z0kx6a3gsnms4c4qq8ve0n",
      ascii "stake_test1urmd9uh08pen8c26a2fn86weprjh52638mrdwc5gfac2u2s25zpat") := by
  rw [← edFast_eq]; decide +kernel

/-- The mnemonic of the pool key. -/
def text3 : Bytes := ascii "man tattoo narrow exhaust twist quiz sand horse easily rack theory animal rack lens final priority horror step metal song humor small setup curious"
/-- Its words and indexes. -/
def mn3 : Mnemonic.Mn := ⟨Mnemonic.splitSpace text3, [1078, 1778, 1176, 635, 1884, 1407, 1529, 878, 556, 1412, 1794, 72, 1412, 1025, 692, 1367, 877, 1707, 1120, 1657, 888, 1635, 1572, 431]⟩

example : Mnemonic.ofString .english text3 = .ok mn3 := by decide +kernel

/-- The CIP-1853 key and its verification key. -/
def poolKey3 (C : Curve) : Out (Bytes × Bytes) := do
  let k ← Pool.fromMnemonic ⟨C, mnemonicPrims, blake2b224, blake2b224_length⟩ mn3
  let v ← Pool.xskeyVkey ⟨C, mnemonicPrims, blake2b224, blake2b224_length⟩ k
  return (k.key, v)

example : poolKey3 edwards25519 = .ok (beBytes 64 0x68904c099d72edda5f4aaf3df7b91bb297010a5b92f90ea6f2d0dbfe4c37f25473dba74c0e94c3eed3b7af55735cdd3b374985b7f570f744e59024a9d77b6ed8,
    beBytes 32 0x3d7021b446ebfaa688f62e176793afc2690eec74a4d68fecf2141b558213d27a) := by
  rw [← edFast_eq]; decide +kernel

end Cardano.Vectors
