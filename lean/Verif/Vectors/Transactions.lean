import Verif.Vectors.Byron
import Verif.Model.BabbageBuilder

/-! # Test vectors: transactions

test/test_cardano_transaction_api.cpp and test/test_cardano_shelley_transaction_api.cpp, run on the model
(see `Verif.Vectors.Keys`); the expected transactions come from cardano-cli. -/

namespace Cardano.Vectors

open Cardano Cardano.Ed Cardano.Spec Cardano.Real Cardano.Bip32 Cardano.Address

/-- The payment key of the tests, path 1852H/1815H/0H/0/0. -/
def paymentKey : Prv := prvOfX (beBytes 96 0x084dd7af554b9c8c7e5a777dc528ed570cfd36db32bc2be359cc208dc947a94333daaf32256a61be975d1f7908a50ebfae96459309906f7ec40b1969450137bdcd3aca54d3b1f34613d9f54224a1a6d2369e4f3cfb8d67ae342b33ee3692dffb)
/-- The stake key of the tests, path 1852H/1815H/0H/2/0. -/
def stakeKey : Prv := prvOfX (beBytes 96 0x288a631c6960dde8519b39718cb022c996d855a1d84804a001c46fd2c447a9438372cc915498231df2cd4a2c76e260412bc654500e6f815ab10a547d53b77f00728ab0def208321af02e406f0af83af6123a1a55fefaa4d9fb4096220d40b0f0)

/-- Their derivation. -/
def deriveKey (C : Curve) (role : UInt32) : Out Prv := do
  let b ← account.deriveChild C prims role .v2
  b.deriveChild C prims 0 .v2

example : deriveKey edwards25519 0 = .ok paymentKey := by rw [← edFast_eq]; decide +kernel
example : deriveKey edwards25519 2 = .ok stakeKey := by rw [← edFast_eq]; decide +kernel

/-- The result of a history of calls. -/
def finished {α β : Type} (f : α → β) : Option α → Out β
  | some b => .ok (f b)
  | none => .ub

/-! ### Babbage -/

open BabbageBuilder in
/-- `test_SimpleTransaction_id` -/
def simpleId (E : TxBuilder.Env) : Out Bytes := do
  let a ← Base.fromBech32 (ascii "addr_test1qzqcspr8cx0djx9ds9wtn9nan6k2mpw8dxc0jf4ds666urdyc9pn6xptv3c5tcx7rrzpgpzh9tyzw7ytch8709p2da6s7k8m55")
  let b ← Base.fromBech32 (ascii "addr_test1qqvhpysx9zcmwf937dr4ka5j7qc8fmstu8qdf0s6j78rl54x0vy5dzuykz980fhmnrxjqe2ud8qqmnee8826wvzq4z7qp6ks64")
  finished (getID E) (run E 0 {} [.addInput (beBytes 32 0xB64DEAFA7F726818607A23B354F9D3ACF945A94FE53D6C54B75715565D4DD626) 0,
    .addOutputBase a 89826139 false, .addOutputBase b 10000000 false, .setFee 173861, .setTtl 7583054])

example : simpleId tx = .ok (beBytes 32 0x768c6a03fb1cf2787efa0a7bf4f6b80165193996c280b0806f5f7d2ba9c681b5) := by
  rw [← txFast_eq]; decide +kernel

open BabbageBuilder in
/-- `test_SimpleTransaction_signature` -/
def simpleSigned (E : TxBuilder.Env) : Out Bytes := do
  let a ← Base.fromBech32 (ascii "addr_test1qp2fg770ddmqxxduasjsas39l5wwvwa04nj8ud95fde7f70k6tew7wrnx0s4465nx05ajz890g44z0kx6a3gsnms4c4qq8ve0n")
  let b ← Base.fromBech32 (ascii "addr_test1qz7aejw84hukpcuqeywa3mmdgt95vtzv5mqp278g4zeua6hg0h2the7qucaar36nrfntslk57xd7p4ulkgy52ds7ysqqjecqjf")
  finished serialize (run E 0 {} [.addInput (beBytes 32 0x38DC919EA976AC6E834BCBD46B27AECF5DA496C311A085776873A4B9C01F733F) 0,
    .addOutputBase a 9969478417 false, .addOutputBase b 10000000 false, .setFee 173861, .setTtl 13044029, .sign (.bip paymentKey), .sign (.bip paymentKey)])

example : simpleSigned tx = .ok (beBytes 298 0x84a4008182582038dc919ea976ac6e834bcbd46b27aecf5da496c311a085776873a4b9c01f733f000182a20058390054947bcf6b760319bcec250ec225fd1ce63baface47e34b44b73e4f9f6d2f2ef387333e15aea9333e9d908e57a2b513ec6d762884f70ae2a011b00000002523a2b11a200583900bddcc9c7adf960e380c91dd8ef6d42cb462c4ca6c01578e8a8b3ceeae87dd4bbe7c0e63bd1c7531a66b87ed4f19be0d79fb20945361e2400011a00989680021a0002a725031a00c7093da1008182582040d883805bb6dca9bdbba85afbc6556b34447c9ddec81f463924b4a2b711128e584087e8b8157a3e2e1421566042d2974a91d1cb5aa4864439e0665b20af2af8d917afdab774a5e28223984a02e5105adfae97d6c2e2369862b12795b4e6de26d409f5f6) := by
  rw [← txFast_eq]; decide +kernel

/-- The change address of the tests. -/
def changeText : Bytes := ascii "addr1q90npzsed8jgy868pxk7l6j9yt586rt7967vtpynuemtgaw2hc28qjn559ea96hy6gwzmm6c0rc6cf3unvw29wadw98slryedc"
/-- The receiver's address. -/
def toText : Bytes := ascii "addr1qxkfg5kgh43t29l5ev6hvqdnfx3d4lf09qn298ua66nvdaxgj0v7sm7gyn0l3huhuwn6ktgvrny9wyqx4px3l3ldu4uq7czuxe"
/-- The rewards address. -/
def rewardsText : Bytes := ascii "stake1u89tu9rsff62zu7jatjdy8pdaav83udvyc7fk89zhwkhzncapqzhe"
/-- The transaction spent. -/
def utxoId : Bytes := beBytes 32 0xe30365e4300db8e8f9834403e4adb1c3aa5943bc03d99ff53204d763a6800952

open BabbageBuilder in
/-- `test_WithdrawalTransaction_CBOR` -/
def withdrawalCbor (E : TxBuilder.Env) : Out Bytes := do
  let a ← Base.fromBech32 changeText
  let b ← Base.fromBech32 toText
  let r ← rewardsFromBech32 rewardsText
  finished serialize (run E 0 {} [.setFee 193749, .addInput utxoId 6, .addInput utxoId 7, .addOutputBase b 1000000 true,
    .addOutputBase a 10843722 true, .addWithdrawal r 10000000])

example : withdrawalCbor tx = .ok (beBytes 255 0x84a40082825820e30365e4300db8e8f9834403e4adb1c3aa5943bc03d99ff53204d763a680095206825820e30365e4300db8e8f9834403e4adb1c3aa5943bc03d99ff53204d763a680095207018282583901ac9452c8bd62b517f4cb357601b349a2dafd2f2826a29f9dd6a6c6f4c893d9e86fc824dff8df97e3a7ab2d0c1cc8571006a84d1fc7ede5781a000f4240825839015f308a1969e4821f4709adefea4522e87d0d7e2ebcc58493e676b475cabe14704a74a173d2eae4d21c2def5878f1ac263c9b1ca2bbad714f1a00a5764a021a0002f4d505a1581de1cabe14704a74a173d2eae4d21c2def5878f1ac263c9b1ca2bbad714f1a00989680a0f5f6) := by
  rw [← txFast_eq]; decide +kernel

open BabbageBuilder in
/-- `testSimpleTransaction`: number of witnesses and transaction id. -/
def simpleSigned2 (E : TxBuilder.Env) : Out (Nat × Bytes) := do
  let a ← Base.fromBech32 changeText
  let b ← Base.fromBech32 toText
  finished (fun b => (b.tx.wits.vkeys.length, getID E b)) (run E 0 {} [.addInput utxoId 0,
    .addOutputBase a 9969478417 false, .addOutputBase b 10000000 false, .setFee 173861, .setTtl 13044029, .sign (.bip paymentKey), .sign (.bip paymentKey)])

example : simpleSigned2 tx = .ok (1, beBytes 32 0x6d190456920e396c39583f1f668b53e551b19adc251144be9c810ca6368a59fb) := by
  rw [← txFast_eq]; decide +kernel

/-! ### Shelley -/

open TxBuilder in
/-- `testWithdrawalTransaction`, balanced by the builder. -/
def shelleyWithdrawal (E : Env) : Out Bytes := do
  let a ← Base.fromBech32 changeText
  let b ← Base.fromBech32 toText
  let r ← rewardsFromBech32 rewardsText
  let t ← finished Builder.tx (run E 10 {} [.setTtl 13044029, .addInput ⟨utxoId, 5, 165898624⟩, .addInput ⟨utxoId, 4, 33586460⟩,
    .addOutputBase b 100000000, .setChangeBase a, .addWithdrawal r 10000000, .balance 2 false])
  t.serialize

example : shelleyWithdrawal tx = .ok (beBytes 260 0x83a50082825820e30365e4300db8e8f9834403e4adb1c3aa5943bc03d99ff53204d763a680095204825820e30365e4300db8e8f9834403e4adb1c3aa5943bc03d99ff53204d763a680095205018282583901ac9452c8bd62b517f4cb357601b349a2dafd2f2826a29f9dd6a6c6f4c893d9e86fc824dff8df97e3a7ab2d0c1cc8571006a84d1fc7ede5781a05f5e100825839015f308a1969e4821f4709adefea4522e87d0d7e2ebcc58493e676b475cabe14704a74a173d2eae4d21c2def5878f1ac263c9b1ca2bbad714f1a0683ed67021a0002aeb5031a00c7093d05a1581de1cabe14704a74a173d2eae4d21c2def5878f1ac263c9b1ca2bbad714f1a00989680a0f6) := by
  rw [← txFast_eq]; decide +kernel

open TxBuilder in
/-- `testTransactionBalancing`, the second builder. -/
def shelleyByHand (E : Env) : Out Bytes := do
  let a ← Base.fromBech32 changeText
  let b ← Base.fromBech32 toText
  let r ← rewardsFromBech32 rewardsText
  let t ← finished Builder.tx (run E 10 {} [.setTtl 13044029, .addInput ⟨utxoId, 5, 165898624⟩, .addInput ⟨utxoId, 4, 33586460⟩,
    .addWithdrawal r 10000000, .addOutputBase b 100000000,
    .addOutputBase a (165898624 + 33586460 + 10000000 - 100000000 - 175797), .setFee 175797])
  t.serialize

example : shelleyByHand tx = .ok (beBytes 260 0x83a50082825820e30365e4300db8e8f9834403e4adb1c3aa5943bc03d99ff53204d763a680095204825820e30365e4300db8e8f9834403e4adb1c3aa5943bc03d99ff53204d763a680095205018282583901ac9452c8bd62b517f4cb357601b349a2dafd2f2826a29f9dd6a6c6f4c893d9e86fc824dff8df97e3a7ab2d0c1cc8571006a84d1fc7ede5781a05f5e100825839015f308a1969e4821f4709adefea4522e87d0d7e2ebcc58493e676b475cabe14704a74a173d2eae4d21c2def5878f1ac263c9b1ca2bbad714f1a0683ed67021a0002aeb5031a00c7093d05a1581de1cabe14704a74a173d2eae4d21c2def5878f1ac263c9b1ca2bbad714f1a00989680a0f6) := by
  rw [← txFast_eq]; decide +kernel

open TxBuilder in
/-- `testTransactionSerialization`: both keys sign; reading the transaction back and writing it again gives the same bytes
and the same id. -/
def shelleyReread (E : Env) : Out (Bool × Bool) := do
  let a ← Base.fromBech32 changeText
  let b ← Base.fromBech32 toText
  let r ← rewardsFromBech32 rewardsText
  let b1 ← finished id (run E 10 {} [.setTtl 13044029, .addInput ⟨utxoId, 5, 165898624⟩, .addInput ⟨utxoId, 4, 33586460⟩,
    .addWithdrawal r 10000000, .poolRetirement (blake2b224 pub1) 459, .addOutputBase b 100000000, .setChangeBase a, .balance 2 false,
    .sign (.bip paymentKey), .sign (.bip stakeKey)])
  let c1 ← b1.tx.serialize
  let b2 ← fromCBOR c1
  let c2 ← b2.tx.serialize
  let i1 ← getID E b1
  let i2 ← getID E b2
  return (decide (c1 = c2), decide (i1 = i2))

example : shelleyReread tx = .ok (true, true) := by
  rw [← txFast_eq]; decide +kernel

end Cardano.Vectors
