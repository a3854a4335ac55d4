import Verif.Vectors.Addresses

/-! # Test vectors: Byron addresses

test/test_cardano_address_api.cpp, run on the model (see `Verif.Vectors.Keys`). -/

namespace Cardano.Vectors

open Cardano Cardano.Ed Cardano.Spec Cardano.Real Cardano.Bip32

/-! ### Byron addresses -/

/-- Read a Byron address from CBOR and print it. -/
def byronPrint (cbor : Bytes) : Out Bytes := do
  let a ← Byron.fromCBOR cbor
  Byron.toBase58 a

/-- Read a Byron address from its text and print it. -/
def byronReprint (text : Bytes) : Out Bytes := do
  let a ← Byron.fromBase58 text
  Byron.toBase58 a

example : byronPrint (beBytes 43 0x82d818582183581cba970ad36654d8dd8f74274b733452ddeab9a62a397746be3c42ccdda0001a9026da5b) = .ok (ascii "Ae2tdPwUPEZFRbyhz3cpfC2CumGzNkFBN2L42rcUc2yjQpEkxDbkPodpMAi") := by
  decide +kernel
example : byronReprint (ascii "Ae2tdPwUPEZFRbyhz3cpfC2CumGzNkFBN2L42rcUc2yjQpEkxDbkPodpMAi") =
    .ok (ascii "Ae2tdPwUPEZFRbyhz3cpfC2CumGzNkFBN2L42rcUc2yjQpEkxDbkPodpMAi") := by decide +kernel
example : byronPrint (beBytes 83 0x82d818584983581c9c708538a763ff27169987a489e35057ef3cd3778c05e96f7ba9450ea201581e581c9c1722f7e446689256e1a30260f3510d558d99d0c391f2ba89cb697702451a4170cb17001a6979126c) =
    .ok (ascii "37btjrVyb4KEB2STADSsj3MYSAdj52X5FrFWpw2r7Wmj2GDzXjFRsHWuZqrw7zSkwopv8Ci3VWeg6bisU9dgJxW5hb2MZYeduNKbQJrqz3zVBsu9nT") := by
  decide +kernel

/-- The primitives with the two PBKDF2 results that `testByronAddressGenerationFromKeys` needs written
down (15000 and 500 iterations are too many to run in the kernel; the values were computed with another
implementation of PBKDF2). -/
def byronPrims : Prims := { prims with
  pbkdf2 := fun c _ _ n => if c = 15000 ∧ n = 40 then beBytes n 0x9225b906575a602fd5fa01089e7d23c30496a1086357c3c208228e4a4de0409a7025636417364f69 else beBytes n 0xa680b33f18e60dc6021cd485e30ce8ed6b9909c39f4e57759fc221767ab485ac
  pbkdf2_length := fun c _ _ n => by split <;> exact beBytes_length n _ }

/-- The encrypted root key of the test. -/
def byronRoot : Prv :=
  decrypt byronPrims ⟨beBytes 64 0x5079457179b48efd3be6bfe351959c490df067defba703b5e8264ad7fc4b304c175f5a248c8762de70feae23b647b33f63ea478c16803eb7137afd194166eabf,
    beBytes 32 0xda644915ce8c9b7333b43a05d029064f570b2ff1d865165968e06f10cb4894d8⟩ (ascii "B1CD6Vv9$%@W5Vo%iR5$pv01")

example : byronRoot.publicKey edwards25519 =
    .ok ⟨beBytes 32 0xe34ccf1393dc758f0042d9e9c0a7f7151e0f046e3ca1c6b0764475e1d03e0372, byronRoot.cc⟩ := by
  rw [← edFast_eq]; decide +kernel

/-- The address of path `0H/indexH` on the main network. -/
def byronText (C : Curve) (index : UInt32) : Out Bytes := do
  let a ← Byron.fromRootKey C byronPrims byron byronRoot [hardenIndex 0, hardenIndex index] 0
  Byron.toBase58 a

example : byronText edwards25519 0 = .ok (ascii "DdzFFzCqrht4nJCMRgF8xpNMbHFj3xjZn6f4ngpnUujcNXpm5KQFYgU7jwj42ZyjNyjnUqq5ngfEH5YS6hpykqvE78BHTMvgauTBQdsb") := by rw [← edFast_eq]; decide +kernel

example : byronText edwards25519 869280224 = .ok (ascii "DdzFFzCqrhsw7KpiDuCQfhf6szHmZqqZRUrPEkj8ij7yx2ahM3jh1LAFYjTmqCGuTp6BVqPbAfddHGwAinLNtyPmojLe1jx3UU6vzqKc") := by rw [← edFast_eq]; decide +kernel

example : byronText edwards25519 2071358278 = .ok (ascii "DdzFFzCqrhsemgxPDQLmn6auZnUbzaxeEj6FLZuwAP5pK6WrCandFPhcGGrc5h5LR8zz67YHfiCnKsLFFgSbDtfN93guwXxYTrS5XEYd") := by rw [← edFast_eq]; decide +kernel

example : byronText edwards25519 2075417326 = .ok (ascii "DdzFFzCqrhsjUUQkiBpCSYkWLtJPmrPKjg2RPK6hRTgyejsraJh2HKQcHwdDdBHpNCvNLj2PxBrUGMxyvuQtULKv7yLzfmfEo5S5vx8z") := by rw [← edFast_eq]; decide +kernel

example : byronText edwards25519 492230898 = .ok (ascii "DdzFFzCqrht7XNfGYnNyan5fKfLQWs8KVUZ9Jab65r87cvs2vyJ4n9gaCPUGdHMzSA8qKo8x6E76Di4xQQukcVdtaSmwpVkv5ZiUmJa3") := by rw [← edFast_eq]; decide +kernel

end Cardano.Vectors
