import Verif.Vectors.Transactions
import Verif.Model.StakePool

/-! # Test vectors: stake pools

test/test_cardano_stake_pool_api.cpp, and for KES the data of the Haskell node in test/data/kes.  Tests of the model, as in
`Verif.Vectors.Keys`. -/

namespace Cardano.Vectors

open Cardano Cardano.Ed Cardano.Spec Cardano.Real

/-- The cold signing key. -/
def coldSkey : Bytes := beBytes 32 0xa80e525d28622de31138c561dc72699296b39fb101e2e5fa217ff61512389cb5
/-- its verification key -/
def coldVkey : Bytes := beBytes 32 0x7d299589bac9f27adc38533eee15fe68303fa2bb032d2c0a07cbf90d8568d9d6
/-- its pool id -/
def coldPool : Bytes := beBytes 28 0xd0ce9bb3f5214859a8192c0207dd24932abbc70342acff2b2b26e2f2

example : Bech32.decode (ascii "pool_vk1055etzd6e8e84hpc2vlwu907dqcrlg4mqvkjczs8e0usmptgm8tqw2g8ry") = .ok (ascii "pool_vk", coldVkey) := by decide +kernel
example : Bech32.decode (ascii "pool_sk14q89yhfgvgk7xyfcc4sacunfj2tt88a3q83wt73p0lmp2y3cnj6se3l07g") = .ok (ascii "pool_sk", coldSkey) := by decide +kernel
example : Pool.vkeyBech32 coldVkey = .ok (ascii "pool_vk1055etzd6e8e84hpc2vlwu907dqcrlg4mqvkjczs8e0usmptgm8tqw2g8ry") := by decide +kernel
example : Pool.skeyBech32 coldSkey = .ok (ascii "pool_sk14q89yhfgvgk7xyfcc4sacunfj2tt88a3q83wt73p0lmp2y3cnj6se3l07g") := by decide +kernel
example : Pool.skeyVkey pool coldSkey = coldVkey := by rw [← poolFast_eq]; decide +kernel
example : (Pool.extend pool coldSkey >>= Pool.xskeyVkey pool) = .ok coldVkey := by rw [← poolFast_eq]; decide +kernel
example : Pool.poolId pool coldVkey = coldPool := by rw [← poolFast_eq]; decide +kernel
example : Bech32.encode (ascii "pool") coldPool = .ok (ascii "pool16r8fhvl4y9y9n2qe9spq0hfyjv4th3crg2k072etym30y638el4") := by decide +kernel

/-- A disk with room, and the buffer of libstdc++. -/
def disk : Util.Disk := ⟨true, 8191, 1000000⟩

/-- The key files. -/
example : Pool.saveSkey disk [] coldSkey = (ascii "{\n    \"type\": \"StakePoolSigningKey_ed25519\",\n    \"description\": \"Stake Pool Operator Signing Key\",\n    \"cborHex\": \"5820a80e525d28622de31138c561dc72699296b39fb101e2e5fa217ff61512389cb5\"\n}", .ok ()) := by decide +kernel
example : (Pool.extend pool coldSkey >>= fun k => .ok (Pool.saveXskey disk [] k).1) = .ok (ascii "{\n    \"type\": \"StakePoolExtendedSigningKey_ed25519_bip32\",\n    \"description\": \"Stake Pool Operator Signing Key\",\n    \"cborHex\": \"5840d8f4f198623d9617528d06999fdf3837cb965ad8ca3fe50424816e1a6add814f4183bbc9ab268a9026b2ee0db94cb0d8540ea19e0c6a85543d2b64d76dea1d68\"\n}") := by
  rw [← poolFast_eq]; decide +kernel
example : Pool.counterSave disk [] 0 coldVkey = (ascii "{\n    \"type\": \"NodeOperationalCertificateIssueCounter\",\n    \"description\": \"Next certificate issue number: 0\",\n    \"cborHex\": \"820058207d299589bac9f27adc38533eee15fe68303fa2bb032d2c0a07cbf90d8568d9d6\"\n}", .ok ()) := by decide +kernel
example : Pool.saveKesVkey disk [] (beBytes 32 0x98484ea7d354adcd6838d10df2f2af3b9ac2ee45808135b899f4eeb03377fc3c) = (ascii "{\n    \"type\": \"KesVerificationKey_ed25519_kes_2^6\",\n    \"description\": \"KES Verification Key\",\n    \"cborHex\": \"582098484ea7d354adcd6838d10df2f2af3b9ac2ee45808135b899f4eeb03377fc3c\"\n}", .ok ()) := by decide +kernel

/-- The operational certificate, as made by cardano-cli. -/
example : (Pool.generate pool (beBytes 32 0xb4f7f2d8506deebd885e41e9d510a5eb7cd4101275d1860fc243c869470b26e5) (Pool.increment 0) 841 coldSkey).serializeWith coldVkey =
    beBytes 140 0x82845820b4f7f2d8506deebd885e41e9d510a5eb7cd4101275d1860fc243c869470b26e501190349584032bf071f313c14c8d5c0ef50e24078479d4805d98a1457e97ab9f31c57e9afac4404e6f4ab4f78a736e3c9eea428b473ab96b934107cd1437e22e55fa709dd0d58207d299589bac9f27adc38533eee15fe68303fa2bb032d2c0a07cbf90d8568d9d6 := by
  rw [← poolFast_eq]; decide +kernel
example : (Pool.generate pool (beBytes 32 0xb4f7f2d8506deebd885e41e9d510a5eb7cd4101275d1860fc243c869470b26e5) 1 841 coldSkey).verify pool coldVkey = true := by
  rw [← poolFast_eq]; decide +kernel

/-- The double 0.02. -/
def twoPercent : Util.Dbl := .fin false 5764607523034235 58

/-- The registration, as made by cardano-cli. -/
example : ((Address.rewardsFromBech32 (ascii "stake1u9nk44a63wtg22c7jva5lfawmd27nemyparl859p2z4aylc9vsfqd") >>= fun o1 =>
      Address.rewardsFromBech32 (ascii "stake1u88wruysv4n6sw0mkaqf666rrzmk042yc903jsy85zr2k4glsguml") >>= fun o2 =>
      match Pool.register pool 100 coldVkey (beBytes 32 0x9f52b990a53f091cc43712728ebd9d69b277bf5bc673024736961376ce3f7053) 100000000000 170000000 twoPercent o1 with
      | some (.ok p) =>
        match Pool.run pool 100 p [.addOwner o1, .addOwner o2, .addRelayName (ascii "relay.mytestpool.com") 3001,
          .setMetadata (ascii "https://example.com/metadata.json") (beBytes 32 0xc74715ac7b726d24da9d2a847d3428638cd7b4ba3652e92128e5fe6c3e3b496c)] with
        | some (.ok p) => Pool.regSerialize p
        | _ => .ub
      | _ => .ub)) =
    .ok (beBytes 275 0x8a03581cd0ce9bb3f5214859a8192c0207dd24932abbc70342acff2b2b26e2f258203cd279fd07554b84b1681abe29c180d8dc65849a6849c25389478d105c9e83b31b000000174876e8001a0a21fe80d81e82011832581de1676ad7ba8b96852b1e933b4fa7aedb55e9e7640f47f3d0a150abd27f82581c676ad7ba8b96852b1e933b4fa7aedb55e9e7640f47f3d0a150abd27f581ccee1f0906567a839fbb7409d6b4318b767d544c15f194087a086ab55818301190bb97472656c61792e6d7974657374706f6f6c2e636f6d82782168747470733a2f2f6578616d706c652e636f6d2f6d657461646174612e6a736f6e5820c74715ac7b726d24da9d2a847d3428638cd7b4ba3652e92128e5fe6c3e3b496c) := by
  rw [← poolFast_eq]; decide +kernel

/-- The retirement. -/
example : ((Pool.retire pool coldVkey 459).setEpoch 460).serialize = .ok (beBytes 35 0x8304581cd0ce9bb3f5214859a8192c0207dd24932abbc70342acff2b2b26e2f21901cc) := by
  rw [← poolFast_eq]; decide +kernel

end Cardano.Vectors
