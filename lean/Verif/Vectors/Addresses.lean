import Verif.Vectors.Keys
import Verif.Model.AddressKeys
import Verif.Model.Base58

/-! # Test vectors: encodings and addresses

test/test_cardano_encoding_apis.cpp and test/test_cardano_address_api.cpp, run on the model (see `Verif.Vectors.Keys`). -/

namespace Cardano.Vectors

open Cardano Cardano.Ed Cardano.Spec Cardano.Real Cardano.Bip32 Cardano.Address

/-! ### Encodings -/

example : Bech32.decodeHex (ascii "addr1qyghraqad85ue38enxtdkmfsmxktds58msuxhqwyq87yjd2pefk9uwxnjt63hj85l8srdgfh50y7repx0ymaspz5s3msgdc7y8") =
    .ok (ascii "addr", ascii "011171f41d69e9ccc4f99996db6d30d9acb6c287dc386b81c401fc493541ca6c5e38d392f51bc8f4f9e036a137a3c9e1e4267937d804548477") := by
  decide +kernel
example : Bech32.encodeHex (ascii "addr") (ascii "011171f41d69e9ccc4f99996db6d30d9acb6c287dc386b81c401fc493541ca6c5e38d392f51bc8f4f9e036a137a3c9e1e4267937d804548477") =
    .ok (ascii "addr1qyghraqad85ue38enxtdkmfsmxktds58msuxhqwyq87yjd2pefk9uwxnjt63hj85l8srdgfh50y7repx0ymaspz5s3msgdc7y8") := by decide +kernel
example : Bech32.decodeHex (ascii "pool166dkk9kx5y6ug9tnvh0dnvxhwt2yca3g5pd5jaqa8t39cgyqqlr") =
    .ok (ascii "pool", ascii "d69b6b16c6a135c4157365ded9b0d772d44c7628a05b49741d3ae25c") := by decide +kernel
example : Bech32.encodeHex (ascii "pool") (ascii "d69b6b16c6a135c4157365ded9b0d772d44c7628a05b49741d3ae25c") =
    .ok (ascii "pool166dkk9kx5y6ug9tnvh0dnvxhwt2yca3g5pd5jaqa8t39cgyqqlr") := by decide +kernel
example : Bech32.encodeHex (ascii "stake") (ascii "e130188f574458076f6746c4d0b7904247dd477db7d0be91fc919eedfe") =
    .ok (ascii "stake1uycp3r6hg3vqwmm8gmzdpdusgfra63maklgtay0ujx0wmlstrah3d") := by decide +kernel
example : Base58.encode [0x00, 0x00, 0x28, 0x7f, 0xb4, 0xcd] = .ok (ascii "11233QC4") := by decide +kernel
example : Base58.decode (ascii "11233QC4") = .ok [0x00, 0x00, 0x28, 0x7f, 0xb4, 0xcd] := by decide +kernel
example : Base58.encodeHex (ascii "82d818584283581c34c964f2ba4bc1ad09e131f110ff5bb835110069967ca0f62e0c39f1a101581e581ce07c1b3a70256505b286ba878318800b1b980a83fd5a1ec63f247b13001a6dfc0e16") =
    .ok (ascii "DdzFFzCqrhskgmnxD51DjjQajd4Q7mhNaHjSXMi6Cg77VbwWgdCgT8X2zYtTfszqKB2XKR7dhgSBfsgJfzmmAYGtKcHKYqKhWy7o9fwb") := by decide +kernel
example : Base58.decodeHex (ascii "DdzFFzCqrhskgmnxD51DjjQajd4Q7mhNaHjSXMi6Cg77VbwWgdCgT8X2zYtTfszqKB2XKR7dhgSBfsgJfzmmAYGtKcHKYqKhWy7o9fwb") =
    .ok (ascii "82d818584283581c34c964f2ba4bc1ad09e131f110ff5bb835110069967ca0f62e0c39f1a101581e581ce07c1b3a70256505b286ba878318800b1b980a83fd5a1ec63f247b13001a6dfc0e16") := by decide +kernel
example : Base58.decode (ascii "123" ++ [0x80] ++ ascii "456") = .throw .invalidArgument := by decide +kernel
example : Base58.decode (ascii "Test" ++ [0xc2, 0xa9] ++ ascii "String") = .throw .invalidArgument := by decide +kernel

/-! ### Shelley addresses from keys -/

/-- The three addresses of `testAddressGenerationFromKeys`. -/
def addresses (C : Curve) : Out (Bytes × Bytes × Bytes) := do
  let pmt ← leaf C 0 0
  let stk ← leaf C 2 0
  let a ← (Base.fromKeys blake2b224 .testnet pmt stk).toBech32
  let e ← enterpriseToBech32 (enterpriseFromKey blake2b224 .testnet pmt)
  let r ← rewardsToBech32 (rewardsFromKey blake2b224 .testnet stk)
  return (a, e, r)

example : addresses edwards25519 =
    .ok (ascii "addr_test1qp2fg770ddmqxxduasjsas39l5wwvwa04nj8ud95fde7f70k6tew7wrnx0s4465nx05ajz890g44z0kx6a3gsnms4c4qq8ve0n",
      ascii "addr_test1vp2fg770ddmqxxduasjsas39l5wwvwa04nj8ud95fde7f7guscp6v",
      ascii "stake_test1urmd9uh08pen8c26a2fn86weprjh52638mrdwc5gfac2u2s25zpat") := by
  rw [← edFast_eq]; decide +kernel

/-- Reading the rewards address back. -/
def rewardBytes : Out (Bytes × Bytes) := do
  let a ← rewardsFromBech32 (ascii "stake_test1urmd9uh08pen8c26a2fn86weprjh52638mrdwc5gfac2u2s25zpat")
  return (a.toBytesRaw, a.toBytes)

example : rewardBytes = .ok (beBytes 28 0xf6d2f2ef387333e15aea9333e9d908e57a2b513ec6d762884f70ae2a,
    beBytes 29 0xe0f6d2f2ef387333e15aea9333e9d908e57a2b513ec6d762884f70ae2a) := by decide +kernel

example : pointerToBytes 1 2 3 = [1, 2, 3] := by decide +kernel
example : pointerToBytes 123456789 2 3 = [0xba, 0xef, 0x9a, 0x15, 0x02, 0x03] := by decide +kernel

end Cardano.Vectors
