import Verif.Model.Address
import Verif.Model.Bip32

/-! # Shelley addresses made from keys

`src/address.cpp:82-90, 127-134, 167-171, 192-198, 229-234, 255-261, 292-297`.  Blake2b-224 is the
parameter `H` (28 bytes of output). -/

namespace Cardano.Address

open Cardano

/-- `HashPublicKey` (src/address.cpp:82-90): the 32 bytes of the key, without the chain code. -/
def hashPublicKey (H : Bytes → Bytes) (key : Bip32.Pub) : Bytes := H key.key

/-- `BaseAddress::fromKeys` (src/address.cpp:127-134). -/
def Base.fromKeys (H : Bytes → Bytes) (nid : NetworkID) (pmt stk : Bip32.Pub) : Base :=
  Base.mk' nid (hashPublicKey H pmt) (hashPublicKey H stk)

/-- `EnterpriseAddress::fromKey` (src/address.cpp:192-198). -/
def enterpriseFromKey (H : Bytes → Bytes) (nid : NetworkID) (key : Bip32.Pub) : Single :=
  enterprise nid (hashPublicKey H key)

/-- `RewardsAddress::fromKey` (src/address.cpp:255-261). -/
def rewardsFromKey (H : Bytes → Bytes) (nid : NetworkID) (key : Bip32.Pub) : Single :=
  rewards nid (hashPublicKey H key)

/-- `BaseAddress::toBytesRaw` (src/address.cpp:167-171). -/
def Base.toBytesRaw (a : Base) : Bytes := a.pmt ++ a.stk

/-- `EnterpriseAddress::toBytesRaw`, `RewardsAddress::toBytesRaw` (src/address.cpp:229-234, 292-297). -/
def Single.toBytesRaw (a : Single) : Bytes := a.key.take 28

end Cardano.Address
