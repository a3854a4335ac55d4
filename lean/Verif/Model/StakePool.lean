import Verif.Model.Ed25519
import Verif.Model.Ledger
import Verif.Model.Address
import Verif.Model.Util
import Verif.Model.Hex
import Verif.Model.Kes

/-! # Model of `src/stake_pool.cpp` and `include/cardano/stake_pool.hpp`

Keys are byte lists (the fixed extents are hypotheses of the theorems), `size_t` and
`uint64_t` values are natural numbers below 2^64.  The file system is the one of
`Model/Util` (`writeEnvelope`). -/

namespace Cardano.Pool

open Cardano Cardano.Ed Cardano.Ledger

/-- The primitives behind the stake pool classes: the curve, Botan's functions, Blake2b(224). -/
structure Env where
  C : Curve
  P : Bip32.Prims
  blake224 : Bytes → Bytes
  blake224_length : ∀ m, (blake224 m).length = 28

/-! ## Cold keys -/

/-- `ColdVerificationKey::poolId` (src/stake_pool.cpp:55-63). -/
def poolId (E : Env) (vkey : Bytes) : Bytes := E.blake224 vkey

/-- `ColdVerificationKey::verifySignature` (include/cardano/stake_pool.hpp:96-102). -/
def verifySignature (E : Env) (vkey msg sig : Bytes) : Bool := Ed25519.verifySignature E.C E.P.sha512 vkey msg sig

/-- `ColdVerificationKey::asBech32` (src/stake_pool.cpp:49-53). -/
def vkeyBech32 (vkey : Bytes) : Out Bytes := Bech32.encode (ascii "pool_vk") vkey

/-- `ColdSigningKey::asBech32` (src/stake_pool.cpp:74-78). -/
def skeyBech32 (skey : Bytes) : Out Bytes := Bech32.encode (ascii "pool_sk") skey

/-- `ExtendedColdSigningKey::asBech32` (src/stake_pool.cpp:123-127): the 64 key bytes. -/
def xskeyBech32 (k : Bip32.Prv) : Out Bytes := Bech32.encode (ascii "pool_xsk") k.key

/-- `ColdSigningKey::sign` (include/cardano/stake_pool.hpp:151-155). -/
def skeySign (E : Env) (skey msg : Bytes) : Bytes := Ed25519.sign E.C E.P.sha512 skey msg

/-- `ColdSigningKey::verificationKey` (include/cardano/stake_pool.hpp:165-168). -/
def skeyVkey (E : Env) (skey : Bytes) : Bytes := Ed25519.publicKey E.C E.P.sha512 skey

/-- `ColdSigningKey::poolId` (src/stake_pool.cpp:80-83). -/
def skeyPoolId (E : Env) (skey : Bytes) : Bytes := poolId E (skeyVkey E skey)

/-- `ColdSigningKey::extend` (src/stake_pool.cpp:85-89). -/
def extend (E : Env) (skey : Bytes) : Out Bip32.Prv := do
  let x ← Bip32.fromSeed E.P skey
  return Bip32.prvOfX x.xbytes

/-- `ExtendedColdSigningKey::verificationKey` (include/cardano/stake_pool.hpp:236-239). -/
def xskeyVkey (E : Env) (k : Bip32.Prv) : Out Bytes := do
  let p ← k.publicKey E.C
  return p.key

/-- `ExtendedColdSigningKey::poolId` (src/stake_pool.cpp:129-132). -/
def xskeyPoolId (E : Env) (k : Bip32.Prv) : Out Bytes := do
  let v ← xskeyVkey E k
  return poolId E v

/-- `ExtendedColdSigningKey::fromRootKey` (src/stake_pool.cpp:91-100). -/
def fromRootKey (E : Env) (root : Bip32.Prv) : Out Bip32.Prv := do
  let k ← root.deriveChild E.C E.P (Bip32.hardenIndex 1853) .v2
  let k ← k.deriveChild E.C E.P (Bip32.hardenIndex 1815) .v2
  let k ← k.deriveChild E.C E.P (Bip32.hardenIndex 0) .v2
  let k ← k.deriveChild E.C E.P (Bip32.hardenIndex 0) .v2
  return Bip32.prvOfX k.xbytes

/-- `ExtendedColdSigningKey::fromMnemonic` (src/stake_pool.cpp:102-112), without passphrase. -/
def fromMnemonic (E : Env) (mn : Mnemonic.Mn) : Out Bip32.Prv := do
  let root ← Bip32.fromMnemonic E.P mn []
  let k ← root.deriveChild E.C E.P (Bip32.hardenIndex 1853) .v2
  let k ← k.deriveChild E.C E.P (Bip32.hardenIndex 1815) .v2
  let k ← k.deriveChild E.C E.P (Bip32.hardenIndex 0) .v2
  let k ← k.deriveChild E.C E.P (Bip32.hardenIndex 0) .v2
  return Bip32.prvOfX k.xbytes

/-- `VrfVerificationKey::keyHash` (src/stake_pool.cpp:386-393). -/
def vrfKeyHash (E : Env) (vrf : Bytes) : Bytes := E.P.blake256 vrf

/-! ## Key files -/

/-- The common part of the `saveToFile` functions of the keys: an envelope around the
hexadecimal form of the CBOR byte string. -/
def saveKey (dk : Util.Disk) (old : Bytes) (type desc : String) (key : Bytes) : Bytes × Out Unit :=
  Util.writeEnvelope dk old (ascii type) (ascii desc) (Hex.encode (Cbor.enc (.bstr key)))

/-- `ColdVerificationKey::saveToFile` (src/stake_pool.cpp:40-47; strings:
include/cardano/stake_pool.hpp:83-84). -/
def saveVkey (dk : Util.Disk) (old vkey : Bytes) : Bytes × Out Unit :=
  saveKey dk old "StakePoolVerificationKey_ed25519" "Stake Pool Operator Verification Key" vkey

/-- `ColdSigningKey::saveToFile` (src/stake_pool.cpp:65-72; strings:
include/cardano/stake_pool.hpp:139-140). -/
def saveSkey (dk : Util.Disk) (old skey : Bytes) : Bytes × Out Unit :=
  saveKey dk old "StakePoolSigningKey_ed25519" "Stake Pool Operator Signing Key" skey

/-- `ExtendedColdSigningKey::saveToFile` (src/stake_pool.cpp:114-121; strings:
include/cardano/stake_pool.hpp:260-262): `bytes()` are the 64 key bytes. -/
def saveXskey (dk : Util.Disk) (old : Bytes) (k : Bip32.Prv) : Bytes × Out Unit :=
  saveKey dk old "StakePoolExtendedSigningKey_ed25519_bip32" "Stake Pool Operator Signing Key" k.key

/-- `VrfVerificationKey::saveToFile` (src/stake_pool.cpp:395-404). -/
def saveVrfVkey (dk : Util.Disk) (old key : Bytes) : Bytes × Out Unit :=
  saveKey dk old "VrfVerificationKey_PraosVRF" "VRF Verification Key" key

/-- `VrfSigningKey::saveToFile` (src/stake_pool.cpp:406-415). -/
def saveVrfSkey (dk : Util.Disk) (old key : Bytes) : Bytes × Out Unit :=
  saveKey dk old "VrfSigningKey_PraosVRF" "VRF Signing Key" key

/-- `KesVerificationKey::saveToFile` (src/stake_pool.cpp:427-436). -/
def saveKesVkey (dk : Util.Disk) (old key : Bytes) : Bytes × Out Unit :=
  saveKey dk old "KesVerificationKey_ed25519_kes_2^6" "KES Verification Key" key

/-- `KesSigningKey::saveToFile` (src/stake_pool.cpp:438-447): the first `size` bytes of the
stored array, without the four period bytes. -/
def saveKesSkey (dk : Util.Disk) (old : Bytes) (k : Kes.Key) : Bytes × Out Unit :=
  saveKey dk old "KesSigningKey_ed25519_kes_2^6" "KES Signing Key" (k.prv.take (Kes.keySize 6))

/-- `KesSigningKey::generate` (src/stake_pool.cpp:449-456) given the key made by
`SumKesPrivateKey::generate`: the first `size` bytes are copied into a new object. -/
def kesGenerate (s : Kes.Key) : Out Kes.Key := Kes.fromBytes 6 (s.prv.take (Kes.keySize 6))

/-- `KesVerificationKey::verifySignature` (src/stake_pool.cpp:417-425): the signature has the
static extent 448. -/
def kesVerify (S : SigHash) (vkey : Bytes) (period : Nat) (msg sig : Bytes) : Out Bool := do
  let s ← Kes.sigFromBytes 6 sig
  Kes.verify S 6 period vkey msg s

/-! ## Issue counter -/

/-- `OperationalCertificateIssueCounter::increment` (include/cardano/stake_pool.hpp:396-400):
new count. -/
def increment (count : Nat) : Nat := (count + 1) % 2 ^ 64

/-- `OperationalCertificateIssueCounter::decrement` (include/cardano/stake_pool.hpp:404-408). -/
def decrement (count : Nat) : Nat := (count + (2 ^ 64 - 1)) % 2 ^ 64

/-- `OperationalCertificateIssueCounter::serialize` (src/stake_pool.cpp:134-143). -/
def counterSerialize (count : Nat) (vkey : Bytes) : Bytes := Cbor.enc (.array [.uint count, .bstr vkey])

/-- `OperationalCertificateIssueCounter::saveToFile` (src/stake_pool.cpp:145-155). -/
def counterSave (dk : Util.Disk) (old : Bytes) (count : Nat) (vkey : Bytes) : Bytes × Out Unit :=
  Util.writeEnvelope dk old (ascii "NodeOperationalCertificateIssueCounter")
    (ascii "Next certificate issue number: " ++ ascii (toString count)) (Hex.encode (counterSerialize count vkey))

/-! ## Operational certificates -/

/-- `shelley::OperationalCert` (include/cardano/ledger.hpp:1074-1080). -/
structure OpCert where
  hotVkey : Bytes
  seq : Nat
  period : Nat
  sigma : Bytes
  deriving DecidableEq, Repr

/-- `opCertMessageToSign` (src/stake_pool.cpp:157-168). -/
def messageToSign (c : OpCert) : Bytes := (c.hotVkey ++ Util.packBE 8 c.seq) ++ Util.packBE 8 c.period

/-- `OperationalCertificateManager::generateUnsigned` (src/stake_pool.cpp:170-181): the
signature is value-initialized to zeros. -/
def generateUnsigned (hot : Bytes) (count period : Nat) : OpCert := ⟨hot, count, period, List.replicate 64 0⟩

/-- `OperationalCertificateManager::sign(ColdSigningKey)` (src/stake_pool.cpp:211-214). -/
def OpCert.sign (E : Env) (c : OpCert) (skey : Bytes) : OpCert := { c with sigma := skeySign E skey (messageToSign c) }

/-- `OperationalCertificateManager::sign(ExtendedColdSigningKey)` (src/stake_pool.cpp:216-220). -/
def OpCert.signX (E : Env) (c : OpCert) (k : Bip32.Prv) : Out OpCert := do
  let s ← k.sign E.C E.P (messageToSign c)
  return { c with sigma := s }

/-- `OperationalCertificateManager::generate(..., ColdSigningKey)` (src/stake_pool.cpp:183-195). -/
def generate (E : Env) (hot : Bytes) (count period : Nat) (skey : Bytes) : OpCert :=
  (generateUnsigned hot count period).sign E skey

/-- `OperationalCertificateManager::generate(..., ExtendedColdSigningKey)`
(src/stake_pool.cpp:197-209). -/
def generateX (E : Env) (hot : Bytes) (count period : Nat) (k : Bip32.Prv) : Out OpCert :=
  (generateUnsigned hot count period).signX E k

/-- `OperationalCertificateManager::verify` (src/stake_pool.cpp:222-227). -/
def OpCert.verify (E : Env) (c : OpCert) (vkey : Bytes) : Bool := verifySignature E vkey (messageToSign c) c.sigma

/-- The array of the four fields (src/stake_pool.cpp:233-238, 250-255). -/
def OpCert.item (c : OpCert) : Cbor.Item := .array [.bstr c.hotVkey, .uint c.seq, .uint c.period, .bstr c.sigma]

/-- `OperationalCertificateManager::serialize()` (src/stake_pool.cpp:229-240). -/
def OpCert.serialize (c : OpCert) : Bytes := Cbor.enc c.item

/-- `OperationalCertificateManager::serialize(vkey)` (src/stake_pool.cpp:242-258). -/
def OpCert.serializeWith (c : OpCert) (vkey : Bytes) : Bytes := Cbor.enc (.array [c.item, .bstr vkey])

/-- `OperationalCertificateManager::saveToFile` (src/stake_pool.cpp:260-268). -/
def OpCert.save (dk : Util.Disk) (old : Bytes) (c : OpCert) (vkey : Bytes) : Bytes × Out Unit :=
  Util.writeEnvelope dk old (ascii "NodeOperationalCertificate") (ascii "") (Hex.encode (c.serializeWith vkey))

/-- Calls on one issue counter, and issuing with it (the counter is passed by const
reference, so issuing does not change it). -/
inductive CounterCall where
  | increment
  | decrement
  | setCount (n : Nat)
  | issue (hot : Bytes) (period : Nat) (skey : Bytes)

/-- The counter after one call. -/
def CounterCall.next (count : Nat) : CounterCall → Nat
  | .increment => Pool.increment count
  | .decrement => Pool.decrement count
  | .setCount n => n
  | .issue _ _ _ => count

/-- The certificates issued by a history of calls, in order. -/
def issued (E : Env) : (count : Nat) → List CounterCall → List OpCert
  | _, [] => []
  | count, .issue hot period skey :: cs => generate E hot count period skey :: issued E count cs
  | count, c :: cs => issued E (c.next count) cs

/-! ## Registration certificates -/

/-- `MIN_POOL_COST_LOVELACE` (src/stake_pool.cpp:37). -/
def minPoolCost : Nat := 170000000

/-- `(uint64_t) n` for an `int64_t`. -/
def u64 (n : Int) : Nat := (n % 2 ^ 64).toNat

/-- `margin < 0.0 || margin > 1.0` (src/stake_pool.cpp:279, 301). -/
def marginRejected (margin : Util.Dbl) : Bool := margin.ltZero || margin.gtOne

/-- `auto [n, d] = util::rationalApprox(margin, 4096); ... = {(uint64_t)n, (uint64_t)d}`
(src/stake_pool.cpp:289, 295, 305-306); `none` if `rationalApprox` is still looping after
`fuel` turns. -/
def marginApprox (fuel : Nat) (margin : Util.Dbl) : Option (Out Rational) :=
  (Util.rationalApproxD fuel margin 4096).map fun r => do
    let (n, d) ← r
    return ⟨u64 n, u64 d⟩

/-- The constructor `RegistrationCertificateManager(vkey, vrf_vkey, pledge, cost, margin,
reward_account)` (src/stake_pool.cpp:270-297). -/
def register (E : Env) (fuel : Nat) (vkey vrfVkey : Bytes) (pledge cost : Nat) (margin : Util.Dbl)
    (rewardAccount : Address.Single) : Option (Out PoolParams) :=
  if marginRejected margin then some (.throw .invalidArgument)
  else if cost < minPoolCost then some (.throw .invalidArgument)
  else (marginApprox fuel margin).map fun r => do
    let m ← r
    return { operator := poolId E vkey, vrfKeyHash := vrfKeyHash E vrfVkey, pledge := pledge, cost := cost,
             margin := m, rewardAccount := rewardAccount.toBytes, owners := [], relays := [], metadata := none }

/-- The setters of `RegistrationCertificateManager`. -/
inductive Call where
  | setOperatorKey (vkey : Bytes)
  | setOperator (poolId : Bytes)
  | setVrfKey (vrfVkey : Bytes)
  | setPledge (lovelace : Nat)
  | setCost (lovelace : Nat)
  | setMargin (margin : Util.Dbl)
  | setRewardAccount (a : Address.Single)
  | addOwner (a : Address.Single)
  | addRelayMulti (dns : Bytes)
  | addRelayName (dns : Bytes) (port : Nat)
  | addRelayV4 (ip : Bytes) (port : Nat)
  | addRelayV6 (ip : Bytes) (port : Nat)
  | setMetadata (url hash : Bytes)

/-- `util::makeByteArray<N>(span)` (include/cardano/util.hpp:69-76): at most N bytes are
copied into an uninitialized array; with fewer the rest is indeterminate. -/
def makeByteArray (n : Nat) (b : Bytes) : Out Bytes := if b.length < n then .ub else .ok (b.take n)

/-- `setMargin` (src/stake_pool.cpp:299-307). -/
def setMargin (fuel : Nat) (p : PoolParams) (margin : Util.Dbl) : Option (Out PoolParams) :=
  if marginRejected margin then some (.throw .invalidArgument)
  else (marginApprox fuel margin).map fun r => do
    let m ← r
    return { p with margin := m }

/-- `addOwner` (src/stake_pool.cpp:309-315); `toBytesRaw` is the address without its header. -/
def addOwner (p : PoolParams) (a : Address.Single) : Out PoolParams := do
  let k ← makeByteArray 28 a.key
  return { p with owners := setInsert bytesLt k p.owners }

/-- `setMetadata` (src/stake_pool.cpp:357-366): the old value is reset before the hash is
copied. -/
def setMetadata (p : PoolParams) (url hash : Bytes) : Out PoolParams := do
  let h ← makeByteArray 32 hash
  return { p with metadata := some ⟨url, h⟩ }

/-- One setter call (include/cardano/stake_pool.hpp:554-627, src/stake_pool.cpp:299-366).
`none`: the call has not returned after `fuel` turns of a loop. -/
def apply (E : Env) (fuel : Nat) (p : PoolParams) : Call → Option (Out PoolParams)
  | .setOperatorKey v => some (.ok { p with operator := poolId E v })
  | .setOperator i => some (.ok { p with operator := i })
  | .setVrfKey v => some (.ok { p with vrfKeyHash := vrfKeyHash E v })
  | .setPledge n => some (.ok { p with pledge := n })
  | .setCost n => some (.ok { p with cost := n })
  | .setMargin f => setMargin fuel p f
  | .setRewardAccount a => some (.ok { p with rewardAccount := a.toBytes })
  | .addOwner a => some (addOwner p a)
  | .addRelayMulti d => some (.ok { p with relays := p.relays ++ [.multi d] })
  | .addRelayName d port => some (.ok { p with relays := p.relays ++ [.name d (some port)] })
  | .addRelayV4 ip port => some (.ok { p with relays := p.relays ++ [.addr (some ip) none (some port)] })
  | .addRelayV6 ip port => some (.ok { p with relays := p.relays ++ [.addr none (some ip) (some port)] })
  | .setMetadata u h => some (setMetadata p u h)

/-- What the caller holds after one call: a thrown exception leaves the object as it was
(`setMargin` throws before it assigns) and the program goes on. -/
def settle (p : PoolParams) : Out PoolParams → Out PoolParams
  | .throw _ => .ok p
  | r => r

/-- A history of calls on one manager. -/
def run (E : Env) (fuel : Nat) : PoolParams → List Call → Option (Out PoolParams)
  | p, [] => some (.ok p)
  | p, c :: cs =>
    match (apply E fuel p c).map (settle p) with
    | some (.ok p') => run E fuel p' cs
    | r => r

/-- `RegistrationCertificateManager::serialize` (include/cardano/stake_pool.hpp:639-643). -/
def regSerialize (p : PoolParams) : Out Bytes := (Certificate.poolReg p).serialize

/-- `RegistrationCertificateManager::saveToFile` (src/stake_pool.cpp:368-375): the type string
is that of an operational certificate. -/
def regSave (dk : Util.Disk) (old : Bytes) (p : PoolParams) : Bytes × Out Unit :=
  match regSerialize p with
  | .ok b => Util.writeEnvelope dk old (ascii "NodeOperationalCertificate") (ascii "Stake Pool Registration Certificate") (Hex.encode b)
  | .throw e => (old, .throw e)
  | .ub => (old, .ub)

/-! ## Retirement certificates -/

/-- `shelley::PoolRetirement`. -/
structure Retirement where
  pool : Bytes
  epoch : Nat
  deriving DecidableEq, Repr

/-- `DeregistrationCertificateManager(vkey, epoch)` (include/cardano/stake_pool.hpp:671-678). -/
def retire (E : Env) (vkey : Bytes) (epoch : Nat) : Retirement := ⟨poolId E vkey, epoch⟩

/-- `DeregistrationCertificateManager::setEpoch` (include/cardano/stake_pool.hpp:682). -/
def Retirement.setEpoch (r : Retirement) (epoch : Nat) : Retirement := { r with epoch := epoch }

/-- `DeregistrationCertificateManager::serialize` (include/cardano/stake_pool.hpp:694-698). -/
def Retirement.serialize (r : Retirement) : Out Bytes := (Certificate.poolRetire r.pool r.epoch).serialize

/-- `DeregistrationCertificateManager::saveToFile` (src/stake_pool.cpp:377-384). -/
def Retirement.save (dk : Util.Disk) (old : Bytes) (r : Retirement) : Bytes × Out Unit :=
  match r.serialize with
  | .ok b => Util.writeEnvelope dk old (ascii "DeregistrationCertificateManager") (ascii "Stake Pool Retirement Certificate") (Hex.encode b)
  | .throw e => (old, .throw e)
  | .ub => (old, .ub)

end Cardano.Pool
