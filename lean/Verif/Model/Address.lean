import Verif.Model.Bech32

/-
Shelley-era addresses and chain pointers, src/address.cpp:41-304.
`std::array<uint8_t, 28>` members are byte lists; `WF` records their length, which
C++ guarantees by type.
-/

namespace Cardano.Address

/-- `KEY_HASH_LENGTH`. include/cardano/address.hpp:41. -/
def keyHashLength : Nat := 28

/-- `NetworkID`. include/cardano/address.hpp:44-48. -/
inductive NetworkID where
  | mainnet
  | testnet
  deriving DecidableEq, Repr

/-- `nid == mainnet ? NETWORK_TAG_MAINNET : NETWORK_TAG_TESTNET`.
src/address.cpp:49-50, 123. -/
def networkTag : NetworkID → UInt8
  | .mainnet => 1
  | .testnet => 0

/-- `BuildHeaderByte`. src/address.cpp:66-70. -/
def buildHeaderByte (addrType tag : UInt8) : UInt8 := (addrType <<< 4) ||| tag

/-- `GetAddressType`. src/address.cpp:72-75. -/
def getAddressType (h : UInt8) : UInt8 := h >>> 4

/-- `GetNetworkTag`. src/address.cpp:77-80. -/
def getNetworkTag (h : UInt8) : UInt8 := h &&& 0x0f

/-- Address type constants. src/address.cpp:53, 59, 61. -/
def typeBase : UInt8 := 0
def typeEnterprise : UInt8 := 6
def typeRewards : UInt8 := 14

/-- `BaseAddress` members. include/cardano/address.hpp:99-101. -/
structure Base where
  header : UInt8
  pmt : Bytes
  stk : Bytes
  deriving DecidableEq, Repr

/-- `EnterpriseAddress` / `RewardsAddress` members. include/cardano/address.hpp:159-160, 213-214. -/
structure Single where
  header : UInt8
  key : Bytes
  deriving DecidableEq, Repr

/-- `BaseAddress` constructor. src/address.cpp:113-125. -/
def Base.mk' (nid : NetworkID) (pmt stk : Bytes) : Base :=
  { header := buildHeaderByte typeBase (networkTag nid), pmt := pmt, stk := stk }

/-- `BaseAddress::toBytes`. src/address.cpp:160-165. -/
def Base.toBytes (a : Base) : Bytes := a.header :: (a.pmt ++ a.stk)

/-- `BaseAddress::toBech32`. src/address.cpp:173-178. -/
def Base.toBech32 (a : Base) : Out Bytes :=
  if getNetworkTag a.header = 1 then Bech32.encode (ascii "addr") a.toBytes
  else Bech32.encode (ascii "addr_test") a.toBytes

/-- `BaseAddress::fromBech32`. src/address.cpp:136-158.  (The length test makes
the indexed reads of `data` in bounds; they are written as `take`/`drop`.) -/
def Base.fromBech32 (s : Bytes) : Out Base := do
  let r ← Bech32.decode s
  let data := r.2
  if data.length ≠ keyHashLength * 2 + 1 then .throw .invalidArgument
  else
    match data with
    | [] => .ub
    | h :: rest =>
      if getAddressType h ≠ typeBase then .throw .runtimeError
      else .ok { header := h, pmt := rest.take keyHashLength, stk := rest.drop keyHashLength }

/-- Constructors of `EnterpriseAddress` (type 6) and `RewardsAddress` (type 14).
src/address.cpp:180-190, 243-253. -/
def Single.mk' (ty : UInt8) (nid : NetworkID) (key : Bytes) : Single :=
  { header := buildHeaderByte ty (networkTag nid), key := key }

/-- `EnterpriseAddress::toBytes`, `RewardsAddress::toBytes`.
src/address.cpp:221-227, 284-290. -/
def Single.toBytes (a : Single) : Bytes := a.header :: a.key

/-- `toBech32` with the two prefixes of the class: `addr`/`addr_test` for
enterprise, `stake`/`stake_test` for rewards addresses.
src/address.cpp:236-241, 299-304. -/
def Single.toBech32 (main test : String) (a : Single) : Out Bytes :=
  if getNetworkTag a.header = 1 then Bech32.encode (ascii main) a.toBytes
  else Bech32.encode (ascii test) a.toBytes

/-- `fromBech32` of the single-hash classes, with the class's address type.
src/address.cpp:200-219, 263-282. -/
def Single.fromBech32 (ty : UInt8) (s : Bytes) : Out Single := do
  let r ← Bech32.decode s
  let data := r.2
  if data.length ≠ keyHashLength + 1 then .throw .invalidArgument
  else
    match data with
    | [] => .ub
    | h :: rest =>
      if getAddressType h ≠ ty then .throw .runtimeError
      else .ok { header := h, key := rest.take keyHashLength }

/-- `EnterpriseAddress`. -/
def enterprise (nid : NetworkID) (key : Bytes) : Single := Single.mk' typeEnterprise nid key
def enterpriseToBech32 (a : Single) : Out Bytes := a.toBech32 "addr" "addr_test"
def enterpriseFromBech32 (s : Bytes) : Out Single := Single.fromBech32 typeEnterprise s

/-- `RewardsAddress`. -/
def rewards (nid : NetworkID) (key : Bytes) : Single := Single.mk' typeRewards nid key
def rewardsToBech32 (a : Single) : Out Bytes := a.toBech32 "stake" "stake_test"
def rewardsFromBech32 (s : Bytes) : Out Single := Single.fromBech32 typeRewards s

/-- The `while (v > 0)` loop of `ChainPointer::toBytes`; each group is inserted
at the front of `out`. `fuel` bounds the iterations. src/address.cpp:104-108. -/
def ptrHigh : (fuel v : Nat) → Bytes → Bytes
  | 0, _, out => out
  | fuel + 1, v, out =>
    if v > 0 then ptrHigh fuel (v >>> 7) (UInt8.ofNat (0x80 ||| (v &&& 0x7f)) :: out) else out

/-- One value of the pointer. src/address.cpp:102-108. -/
def ptrField (v : Nat) (out : Bytes) : Bytes :=
  ptrHigh (v >>> 7) (v >>> 7) (UInt8.ofNat (v &&& 0x7f) :: out)

/-- `ChainPointer::toBytes`: fields are inserted certificate, transaction, slot.
src/address.cpp:94-111. -/
def pointerToBytes (slot tx cert : Nat) : Bytes := ptrField slot (ptrField tx (ptrField cert []))

end Cardano.Address
