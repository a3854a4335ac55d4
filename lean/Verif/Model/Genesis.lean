import Verif.Model.Util
import Mathlib.Data.String.Basic

/-! # Model of the genesis configurations (include/cardano/genesis.hpp, src/*/genesis.cpp)

`nlohmann::json` values are modelled as trees `J`; text is not (`fromFile` hands the parser's
result to `from_json`).  `std::string` is a Lean `String`: text the JSON parser accepts is
valid UTF-8.  A JSON object is a `std::map`, so its entries are sorted by key without
duplicates; `std::map` and `std::unordered_map` members are lists of that kind (the order of
an `unordered_map` is not observable).  All exceptions of the JSON library are
`Exc.other`. -/

namespace Cardano.Genesis

open Cardano Cardano.Util

/-- `nlohmann::json`: `uint` is `number_unsigned_t`, `sint` is `number_integer_t`. -/
inductive J where
  | null
  | bool (b : Bool)
  | uint (n : Nat)
  | sint (z : Int)
  | float (d : Dbl)
  | str (s : String)
  | arr (l : List J)
  | obj (l : List (String × J))

/-- `std::map<std::string, T>` / `std::unordered_map<std::string, T>`. -/
abbrev Map (α : Type) := List (String × α)

/-- `std::map::emplace`: a key that is present already keeps its value. -/
def emplace (k : String) (v : J) : List (String × J) → List (String × J)
  | [] => [(k, v)]
  | (k', v') :: l => if k < k' then (k, v) :: (k', v') :: l else if k = k' then (k', v') :: l else (k', v') :: emplace k v l

/-- `json{{"k1", v1}, {"k2", v2}, ...}`: a list of pairs whose first component is a string
becomes an object, entry by entry (used in every `to_json`). -/
def mkObj (l : List (String × J)) : J := .obj (l.foldl (fun m p => emplace p.1 p.2 m) [])

/-- The entry of an object, if there is one. -/
def J.get? (j : J) (k : String) : Option J :=
  match j with
  | .obj l => l.lookup k
  | _ => none

/-- `j.at(key)`: throws for a missing key and for a value that is not an object. -/
def J.at (j : J) (k : String) : Out J :=
  match j.get? k with
  | some v => .ok v
  | none => .throw .other

/-- `static_cast` of a `double` to an integer type with values `lo ≤ z < hi`: truncation, and
undefined if the truncated value does not fit (or for NaN and infinities). -/
def truncTo (lo hi : Int) : Dbl → Out Int
  | .fin neg m e =>
    let t : Int := (m / 2 ^ e : Nat)
    let z := if neg then -t else t
    if lo ≤ z ∧ z < hi then .ok z else .ub
  | _ => .ub

/-- Nearest double to a natural number, ties to even (conversion of an integer to `double`). -/
def roundNat (n : Nat) : Nat :=
  if n < 2 ^ 53 then n
  else
    let k := Nat.log2 n - 52
    let q := n / 2 ^ k
    let r := n % 2 ^ k
    let up := 2 ^ k < 2 * r ∨ (2 * r = 2 ^ k ∧ q % 2 = 1)
    (if up then q + 1 else q) * 2 ^ k

/-- `get_to(uint64_t&)`: numbers only; `static_cast<uint64_t>`. -/
def getU64 : J → Out Nat
  | .uint n => .ok (n % 2 ^ 64)
  | .sint z => .ok (z % 2 ^ 64).toNat
  | .float d => do let z ← truncTo 0 (2 ^ 64) d; return z.toNat
  | _ => .throw .other

/-- `get_to(uint32_t&)`, `get_to(uint16_t&)`: numbers and booleans; `static_cast`. -/
def getUNarrow (w : Nat) : J → Out Nat
  | .uint n => .ok (n % 2 ^ w)
  | .sint z => .ok (z % 2 ^ w).toNat
  | .float d => do let z ← truncTo 0 (2 ^ w) d; return z.toNat
  | .bool b => .ok b.toNat
  | _ => .throw .other

/-- `get_to(int64_t&)`: numbers only; `static_cast<int64_t>`. -/
def getI64 : J → Out Int
  | .uint n => .ok (((n : Int) + 2 ^ 63) % 2 ^ 64 - 2 ^ 63)
  | .sint z => .ok ((z + 2 ^ 63) % 2 ^ 64 - 2 ^ 63)
  | .float d => truncTo (-2 ^ 63) (2 ^ 63) d
  | _ => .throw .other

/-- `get_to(double&)`: numbers only. -/
def getDbl : J → Out Dbl
  | .uint n => .ok (.fin false (roundNat n) 0)
  | .sint z => .ok (.fin (decide (z < 0)) (roundNat z.natAbs) 0)
  | .float d => .ok d
  | _ => .throw .other

/-- `get_to(std::string&)`. -/
def getStr : J → Out String
  | .str s => .ok s
  | _ => .throw .other

/-- All entries of an object, in order. -/
def readEntries {α} (f : J → Out α) : List (String × J) → Out (Map α)
  | [] => .ok []
  | (k, v) :: l => do
    let a ← f v
    let m ← readEntries f l
    return (k, a) :: m

/-- `get_to(std::map<std::string, T>&)`, `get_to(std::unordered_map<std::string, T>&)`. -/
def getMap {α} (f : J → Out α) : J → Out (Map α)
  | .obj l => readEntries f l
  | _ => .throw .other

/-- `arr[i] = j.at(i).get<T>()` for `i < n`. -/
def readFirst {α} (f : J → Out α) : Nat → List J → Out (List α)
  | 0, _ => .ok []
  | _ + 1, [] => .throw .other
  | n + 1, v :: l => do
    let a ← f v
    let m ← readFirst f n l
    return a :: m

/-- `get_to(std::array<T, n>&)`: elements beyond the `n`-th are ignored. -/
def getArr {α} (n : Nat) (f : J → Out α) : J → Out (List α)
  | .arr l => readFirst f n l
  | _ => .throw .other

/-- `json` from a map. -/
def mapJ {α} (f : α → J) (m : Map α) : J := .obj (m.map fun p => (p.1, f p.2))

/-- `json` from an array. -/
def arrJ {α} (f : α → J) (l : List α) : J := .arr (l.map f)

/-! ## Byron (src/byron/genesis.cpp) -/

namespace Byron

/-- `SoftforkRule` (include/cardano/genesis.hpp:43-51). -/
structure SoftforkRule where
  initThd : String
  minThd : String
  thdDecrement : String
  deriving DecidableEq, Repr

/-- `to_json` (src/byron/genesis.cpp:27-34). -/
def SoftforkRule.toJson (x : SoftforkRule) : J :=
  mkObj [
    ("initThd", J.str x.initThd),
    ("minThd", J.str x.minThd),
    ("thdDecrement", J.str x.thdDecrement)]

/-- `from_json` (src/byron/genesis.cpp:36-41). -/
def SoftforkRule.fromJson (j : J) : Out SoftforkRule := do
  let initThd ← getStr (← j.at "initThd")
  let minThd ← getStr (← j.at "minThd")
  let thdDecrement ← getStr (← j.at "thdDecrement")
  return { initThd, minThd, thdDecrement }

/-- `TxFeePolicy` (include/cardano/genesis.hpp:54-61). -/
structure TxFeePolicy where
  multiplier : String
  summand : String
  deriving DecidableEq, Repr

/-- `to_json` (src/byron/genesis.cpp:43-46). -/
def TxFeePolicy.toJson (x : TxFeePolicy) : J :=
  mkObj [
    ("multiplier", J.str x.multiplier),
    ("summand", J.str x.summand)]

/-- `from_json` (src/byron/genesis.cpp:48-52). -/
def TxFeePolicy.fromJson (j : J) : Out TxFeePolicy := do
  let multiplier ← getStr (← j.at "multiplier")
  let summand ← getStr (← j.at "summand")
  return { multiplier, summand }

/-- `BlockVersionData` (include/cardano/genesis.hpp:64-83). -/
structure BlockVersionData where
  heavyDelThd : String
  maxBlockSize : String
  maxHeaderSize : String
  maxProposalSize : String
  maxTxSize : String
  mpcThd : String
  scriptVersion : Nat
  slotDuration : String
  softforkRule : SoftforkRule
  txFeePolicy : TxFeePolicy
  unlockStakeEpoch : String
  updateImplicit : String
  updateProposalThd : String
  updateVoteThd : String
  deriving DecidableEq, Repr

/-- `to_json` (src/byron/genesis.cpp:54-72). -/
def BlockVersionData.toJson (x : BlockVersionData) : J :=
  mkObj [
    ("heavyDelThd", J.str x.heavyDelThd),
    ("maxBlockSize", J.str x.maxBlockSize),
    ("maxHeaderSize", J.str x.maxHeaderSize),
    ("maxProposalSize", J.str x.maxProposalSize),
    ("maxTxSize", J.str x.maxTxSize),
    ("mpcThd", J.str x.mpcThd),
    ("scriptVersion", J.uint x.scriptVersion),
    ("slotDuration", J.str x.slotDuration),
    ("softforkRule", SoftforkRule.toJson x.softforkRule),
    ("txFeePolicy", TxFeePolicy.toJson x.txFeePolicy),
    ("unlockStakeEpoch", J.str x.unlockStakeEpoch),
    ("updateImplicit", J.str x.updateImplicit),
    ("updateProposalThd", J.str x.updateProposalThd),
    ("updateVoteThd", J.str x.updateVoteThd)]

/-- `from_json` (src/byron/genesis.cpp:74-90). -/
def BlockVersionData.fromJson (j : J) : Out BlockVersionData := do
  let heavyDelThd ← getStr (← j.at "heavyDelThd")
  let maxBlockSize ← getStr (← j.at "maxBlockSize")
  let maxHeaderSize ← getStr (← j.at "maxHeaderSize")
  let maxProposalSize ← getStr (← j.at "maxProposalSize")
  let maxTxSize ← getStr (← j.at "maxTxSize")
  let mpcThd ← getStr (← j.at "mpcThd")
  let scriptVersion ← getUNarrow 16 (← j.at "scriptVersion")
  let slotDuration ← getStr (← j.at "slotDuration")
  let softforkRule ← SoftforkRule.fromJson (← j.at "softforkRule")
  let txFeePolicy ← TxFeePolicy.fromJson (← j.at "txFeePolicy")
  let unlockStakeEpoch ← getStr (← j.at "unlockStakeEpoch")
  let updateImplicit ← getStr (← j.at "updateImplicit")
  let updateProposalThd ← getStr (← j.at "updateProposalThd")
  let updateVoteThd ← getStr (← j.at "updateVoteThd")
  return { heavyDelThd, maxBlockSize, maxHeaderSize, maxProposalSize, maxTxSize, mpcThd, scriptVersion, slotDuration, softforkRule, txFeePolicy, unlockStakeEpoch, updateImplicit, updateProposalThd, updateVoteThd }

/-- `ProtocolConsts` (include/cardano/genesis.hpp:86-95). -/
structure ProtocolConsts where
  k : Nat
  protocolMagic : Nat
  vssMaxTtl : Nat
  vssMinTtl : Nat
  deriving DecidableEq, Repr

/-- `to_json` (src/byron/genesis.cpp:92-100). -/
def ProtocolConsts.toJson (x : ProtocolConsts) : J :=
  mkObj [
    ("k", J.uint x.k),
    ("protocolMagic", J.uint x.protocolMagic),
    ("vssMaxTTL", J.uint x.vssMaxTtl),
    ("vssMinTTL", J.uint x.vssMinTtl)]

/-- `from_json` (src/byron/genesis.cpp:102-108). -/
def ProtocolConsts.fromJson (j : J) : Out ProtocolConsts := do
  let k ← getUNarrow 32 (← j.at "k")
  let protocolMagic ← getUNarrow 32 (← j.at "protocolMagic")
  let vssMaxTtl ← getUNarrow 32 (← j.at "vssMaxTTL")
  let vssMinTtl ← getUNarrow 32 (← j.at "vssMinTTL")
  return { k, protocolMagic, vssMaxTtl, vssMinTtl }

/-- `DelegationData` (include/cardano/genesis.hpp:98-107). -/
structure DelegationData where
  cert : String
  delegatePk : String
  issuerPk : String
  omega : Nat
  deriving DecidableEq, Repr

/-- `to_json` (src/byron/genesis.cpp:110-118). -/
def DelegationData.toJson (x : DelegationData) : J :=
  mkObj [
    ("cert", J.str x.cert),
    ("delegatePk", J.str x.delegatePk),
    ("issuerPk", J.str x.issuerPk),
    ("omega", J.uint x.omega)]

/-- `from_json` (src/byron/genesis.cpp:120-126). -/
def DelegationData.fromJson (j : J) : Out DelegationData := do
  let cert ← getStr (← j.at "cert")
  let delegatePk ← getStr (← j.at "delegatePk")
  let issuerPk ← getStr (← j.at "issuerPk")
  let omega ← getU64 (← j.at "omega")
  return { cert, delegatePk, issuerPk, omega }

/-- `VssCert` (include/cardano/genesis.hpp:110-119). -/
structure VssCert where
  expiryEpoch : Nat
  signature : String
  signingKey : String
  vssKey : String
  deriving DecidableEq, Repr

/-- `to_json` (src/byron/genesis.cpp:128-136). -/
def VssCert.toJson (x : VssCert) : J :=
  mkObj [
    ("expiryEpoch", J.uint x.expiryEpoch),
    ("signature", J.str x.signature),
    ("signingKey", J.str x.signingKey),
    ("vssKey", J.str x.vssKey)]

/-- `from_json` (src/byron/genesis.cpp:138-144). -/
def VssCert.fromJson (j : J) : Out VssCert := do
  let expiryEpoch ← getUNarrow 32 (← j.at "expiryEpoch")
  let signature ← getStr (← j.at "signature")
  let signingKey ← getStr (← j.at "signingKey")
  let vssKey ← getStr (← j.at "vssKey")
  return { expiryEpoch, signature, signingKey, vssKey }

/-- `GenesisParameters` (include/cardano/genesis.hpp:122-142). -/
structure Params where
  avvmDistr : Map String
  blockVersionData : BlockVersionData
  ftsSeed : String
  protocolConsts : ProtocolConsts
  startTime : Nat
  bootStakeholders : Map Nat
  heavyDelegation : Map DelegationData
  nonAvvmBalances : Map Nat
  vssCerts : Map VssCert
  deriving DecidableEq, Repr

/-- `to_json` (src/byron/genesis.cpp:146-159). -/
def Params.toJson (x : Params) : J :=
  mkObj [
    ("avvmDistr", mapJ J.str x.avvmDistr),
    ("blockVersionData", BlockVersionData.toJson x.blockVersionData),
    ("ftsSeed", J.str x.ftsSeed),
    ("protocolConsts", ProtocolConsts.toJson x.protocolConsts),
    ("startTime", J.uint x.startTime),
    ("bootStakeholders", mapJ J.uint x.bootStakeholders),
    ("heavyDelegation", mapJ DelegationData.toJson x.heavyDelegation),
    ("nonAvvmBalances", mapJ J.uint x.nonAvvmBalances),
    ("vssCerts", mapJ VssCert.toJson x.vssCerts)]

/-- `from_json` (src/byron/genesis.cpp:161-172). -/
def Params.fromJson (j : J) : Out Params := do
  let avvmDistr ← getMap getStr (← j.at "avvmDistr")
  let blockVersionData ← BlockVersionData.fromJson (← j.at "blockVersionData")
  let ftsSeed ← getStr (← j.at "ftsSeed")
  let protocolConsts ← ProtocolConsts.fromJson (← j.at "protocolConsts")
  let startTime ← getU64 (← j.at "startTime")
  let bootStakeholders ← getMap (getUNarrow 32) (← j.at "bootStakeholders")
  let heavyDelegation ← getMap DelegationData.fromJson (← j.at "heavyDelegation")
  let nonAvvmBalances ← getMap getU64 (← j.at "nonAvvmBalances")
  let vssCerts ← getMap VssCert.fromJson (← j.at "vssCerts")
  return { avvmDistr, blockVersionData, ftsSeed, protocolConsts, startTime, bootStakeholders, heavyDelegation, nonAvvmBalances, vssCerts }

end Byron

/-! ## Shelley (src/shelley/genesis.cpp) -/

namespace Shelley

/-- `GenesisProtocolVersion` (include/cardano/genesis.hpp:152-159). -/
structure ProtocolVersion where
  major : Nat
  minor : Nat
  deriving DecidableEq, Repr

/-- `to_json` (src/shelley/genesis.cpp:27-30). -/
def ProtocolVersion.toJson (x : ProtocolVersion) : J :=
  mkObj [
    ("major", J.uint x.major),
    ("minor", J.uint x.minor)]

/-- `from_json` (src/shelley/genesis.cpp:32-36). -/
def ProtocolVersion.fromJson (j : J) : Out ProtocolVersion := do
  let major ← getUNarrow 32 (← j.at "major")
  let minor ← getUNarrow 32 (← j.at "minor")
  return { major, minor }

/-- `ExtraEntropy` (include/cardano/genesis.hpp:163-169). -/
structure ExtraEntropy where
  tag : String
  deriving DecidableEq, Repr

/-- `to_json` (src/shelley/genesis.cpp:38-41). -/
def ExtraEntropy.toJson (x : ExtraEntropy) : J :=
  mkObj [
    ("tag", J.str x.tag)]

/-- `from_json` (src/shelley/genesis.cpp:43-46). -/
def ExtraEntropy.fromJson (j : J) : Out ExtraEntropy := do
  let tag ← getStr (← j.at "tag")
  return { tag }

/-- `ProtocolParameters` (include/cardano/genesis.hpp:173-195). -/
structure ProtocolParameters where
  protocolVersion : ProtocolVersion
  decentralisationParam : Nat
  eMax : Nat
  extraEntropy : ExtraEntropy
  maxTxSize : Nat
  maxBlockBodySize : Nat
  maxBlockHeaderSize : Nat
  minFeeA : Nat
  minFeeB : Nat
  minUtxoValue : Nat
  poolDeposit : Nat
  minPoolCost : Nat
  keyDeposit : Nat
  nOpt : Nat
  rho : Dbl
  tau : Dbl
  a0 : Dbl
  deriving DecidableEq, Repr

/-- `to_json` (src/shelley/genesis.cpp:48-69). -/
def ProtocolParameters.toJson (x : ProtocolParameters) : J :=
  mkObj [
    ("protocolVersion", ProtocolVersion.toJson x.protocolVersion),
    ("decentralisationParam", J.uint x.decentralisationParam),
    ("eMax", J.uint x.eMax),
    ("extraEntropy", ExtraEntropy.toJson x.extraEntropy),
    ("maxTxSize", J.uint x.maxTxSize),
    ("maxBlockBodySize", J.uint x.maxBlockBodySize),
    ("maxBlockHeaderSize", J.uint x.maxBlockHeaderSize),
    ("minFeeA", J.uint x.minFeeA),
    ("minFeeB", J.uint x.minFeeB),
    ("minUTxOValue", J.uint x.minUtxoValue),
    ("poolDeposit", J.uint x.poolDeposit),
    ("minPoolCost", J.uint x.minPoolCost),
    ("keyDeposit", J.uint x.keyDeposit),
    ("nOpt", J.uint x.nOpt),
    ("rho", J.float x.rho),
    ("tau", J.float x.tau),
    ("a0", J.float x.a0)]

/-- `from_json` (src/shelley/genesis.cpp:71-90). -/
def ProtocolParameters.fromJson (j : J) : Out ProtocolParameters := do
  let protocolVersion ← ProtocolVersion.fromJson (← j.at "protocolVersion")
  let decentralisationParam ← getU64 (← j.at "decentralisationParam")
  let eMax ← getU64 (← j.at "eMax")
  let extraEntropy ← ExtraEntropy.fromJson (← j.at "extraEntropy")
  let maxTxSize ← getU64 (← j.at "maxTxSize")
  let maxBlockBodySize ← getU64 (← j.at "maxBlockBodySize")
  let maxBlockHeaderSize ← getU64 (← j.at "maxBlockHeaderSize")
  let minFeeA ← getU64 (← j.at "minFeeA")
  let minFeeB ← getU64 (← j.at "minFeeB")
  let minUtxoValue ← getU64 (← j.at "minUTxOValue")
  let poolDeposit ← getU64 (← j.at "poolDeposit")
  let minPoolCost ← getU64 (← j.at "minPoolCost")
  let keyDeposit ← getU64 (← j.at "keyDeposit")
  let nOpt ← getU64 (← j.at "nOpt")
  let rho ← getDbl (← j.at "rho")
  let tau ← getDbl (← j.at "tau")
  let a0 ← getDbl (← j.at "a0")
  return { protocolVersion, decentralisationParam, eMax, extraEntropy, maxTxSize, maxBlockBodySize, maxBlockHeaderSize, minFeeA, minFeeB, minUtxoValue, poolDeposit, minPoolCost, keyDeposit, nOpt, rho, tau, a0 }

/-- `GenDeleg` (include/cardano/genesis.hpp:198-205). -/
structure GenDeleg where
  delegate : String
  vrf : String
  deriving DecidableEq, Repr

/-- `to_json` (src/shelley/genesis.cpp:92-95). -/
def GenDeleg.toJson (x : GenDeleg) : J :=
  mkObj [
    ("delegate", J.str x.delegate),
    ("vrf", J.str x.vrf)]

/-- `from_json` (src/shelley/genesis.cpp:97-101). -/
def GenDeleg.fromJson (j : J) : Out GenDeleg := do
  let delegate ← getStr (← j.at "delegate")
  let vrf ← getStr (← j.at "vrf")
  return { delegate, vrf }

/-- `GenesisParameters` (include/cardano/genesis.hpp:208-232). -/
structure Params where
  activeSlotsCoeff : Dbl
  protocolParameters : ProtocolParameters
  genDelegs : Map GenDeleg
  updateQuorum : Nat
  networkId : String
  maxLovelaceSupply : Nat
  networkMagic : Nat
  epochLength : Nat
  systemStart : String
  slotsPerKesPeriod : Nat
  slotLength : Nat
  maxKesEvolutions : Nat
  securityParam : Nat
  deriving DecidableEq, Repr

/-- `to_json` (src/shelley/genesis.cpp:103-121). -/
def Params.toJson (x : Params) : J :=
  mkObj [
    ("activeSlotsCoeff", J.float x.activeSlotsCoeff),
    ("protocolParams", ProtocolParameters.toJson x.protocolParameters),
    ("genDelegs", mapJ GenDeleg.toJson x.genDelegs),
    ("updateQuorum", J.uint x.updateQuorum),
    ("networkId", J.str x.networkId),
    ("initialFunds", J.null),
    ("maxLovelaceSupply", J.uint x.maxLovelaceSupply),
    ("networkMagic", J.uint x.networkMagic),
    ("epochLength", J.uint x.epochLength),
    ("systemStart", J.str x.systemStart),
    ("slotsPerKESPeriod", J.uint x.slotsPerKesPeriod),
    ("slotLength", J.uint x.slotLength),
    ("maxKESEvolutions", J.uint x.maxKesEvolutions),
    ("securityParam", J.uint x.securityParam)]

/-- `from_json` (src/shelley/genesis.cpp:123-138). -/
def Params.fromJson (j : J) : Out Params := do
  let activeSlotsCoeff ← getDbl (← j.at "activeSlotsCoeff")
  let protocolParameters ← ProtocolParameters.fromJson (← j.at "protocolParams")
  let genDelegs ← getMap GenDeleg.fromJson (← j.at "genDelegs")
  let updateQuorum ← getU64 (← j.at "updateQuorum")
  let networkId ← getStr (← j.at "networkId")
  let maxLovelaceSupply ← getU64 (← j.at "maxLovelaceSupply")
  let networkMagic ← getU64 (← j.at "networkMagic")
  let epochLength ← getU64 (← j.at "epochLength")
  let systemStart ← getStr (← j.at "systemStart")
  let slotsPerKesPeriod ← getU64 (← j.at "slotsPerKESPeriod")
  let slotLength ← getU64 (← j.at "securityParam")
  let maxKesEvolutions ← getU64 (← j.at "maxKESEvolutions")
  let securityParam ← getU64 (← j.at "securityParam")
  return { activeSlotsCoeff, protocolParameters, genDelegs, updateQuorum, networkId, maxLovelaceSupply, networkMagic, epochLength, systemStart, slotsPerKesPeriod, slotLength, maxKesEvolutions, securityParam }

end Shelley

/-! ## Alonzo (src/alonzo/genesis.cpp) -/

namespace Alonzo

/-- `PriceFraction` (include/cardano/genesis.hpp:241-248). -/
structure PriceFraction where
  numerator : Int
  denominator : Int
  deriving DecidableEq, Repr

/-- `to_json` (src/alonzo/genesis.cpp:27-30). -/
def PriceFraction.toJson (x : PriceFraction) : J :=
  mkObj [
    ("numerator", J.sint x.numerator),
    ("denominator", J.sint x.denominator)]

/-- `from_json` (src/alonzo/genesis.cpp:32-36). -/
def PriceFraction.fromJson (j : J) : Out PriceFraction := do
  let numerator ← getI64 (← j.at "numerator")
  let denominator ← getI64 (← j.at "denominator")
  return { numerator, denominator }

/-- `ExecutionPrices` (include/cardano/genesis.hpp:251-258). -/
structure ExecutionPrices where
  prSteps : PriceFraction
  prMem : PriceFraction
  deriving DecidableEq, Repr

/-- `to_json` (src/alonzo/genesis.cpp:38-41). -/
def ExecutionPrices.toJson (x : ExecutionPrices) : J :=
  mkObj [
    ("prSteps", PriceFraction.toJson x.prSteps),
    ("prMem", PriceFraction.toJson x.prMem)]

/-- `from_json` (src/alonzo/genesis.cpp:43-47). -/
def ExecutionPrices.fromJson (j : J) : Out ExecutionPrices := do
  let prSteps ← PriceFraction.fromJson (← j.at "prSteps")
  let prMem ← PriceFraction.fromJson (← j.at "prMem")
  return { prSteps, prMem }

/-- `ExecutionUnits` (include/cardano/genesis.hpp:261-268). -/
structure ExecutionUnits where
  exUnitsMem : Nat
  exUnitsSteps : Nat
  deriving DecidableEq, Repr

/-- `to_json` (src/alonzo/genesis.cpp:49-54). -/
def ExecutionUnits.toJson (x : ExecutionUnits) : J :=
  mkObj [
    ("exUnitsMem", J.uint x.exUnitsMem),
    ("exUnitsSteps", J.uint x.exUnitsSteps)]

/-- `from_json` (src/alonzo/genesis.cpp:56-60). -/
def ExecutionUnits.fromJson (j : J) : Out ExecutionUnits := do
  let exUnitsMem ← getU64 (← j.at "exUnitsMem")
  let exUnitsSteps ← getU64 (← j.at "exUnitsSteps")
  return { exUnitsMem, exUnitsSteps }

/-- `CostModels` (include/cardano/genesis.hpp:271-277). -/
structure CostModels where
  plutusV1 : Map Int
  deriving DecidableEq, Repr

/-- `to_json` (src/alonzo/genesis.cpp:62-65). -/
def CostModels.toJson (x : CostModels) : J :=
  mkObj [
    ("PlutusV1", mapJ J.sint x.plutusV1)]

/-- `from_json` (src/alonzo/genesis.cpp:67-70). -/
def CostModels.fromJson (j : J) : Out CostModels := do
  let plutusV1 ← getMap getI64 (← j.at "PlutusV1")
  return { plutusV1 }

/-- `GenesisParameters` (include/cardano/genesis.hpp:280-298). -/
structure Params where
  lovelacePerUtxoWord : Nat
  executionPrices : ExecutionPrices
  maxTxExUnits : ExecutionUnits
  maxBlockExUnits : ExecutionUnits
  maxValueSize : Nat
  collateralPercentage : Nat
  maxCollateralInputs : Nat
  costModels : CostModels
  deriving DecidableEq, Repr

/-- `to_json` (src/alonzo/genesis.cpp:72-84). -/
def Params.toJson (x : Params) : J :=
  mkObj [
    ("lovelacePerUTxOWord", J.uint x.lovelacePerUtxoWord),
    ("executionPrices", ExecutionPrices.toJson x.executionPrices),
    ("maxTxExUnits", ExecutionUnits.toJson x.maxTxExUnits),
    ("maxBlockExUnits", ExecutionUnits.toJson x.maxBlockExUnits),
    ("maxValueSize", J.uint x.maxValueSize),
    ("collateralPercentage", J.uint x.collateralPercentage),
    ("maxCollateralInputs", J.uint x.maxCollateralInputs),
    ("costModels", CostModels.toJson x.costModels)]

/-- `from_json` (src/alonzo/genesis.cpp:86-96). -/
def Params.fromJson (j : J) : Out Params := do
  let lovelacePerUtxoWord ← getU64 (← j.at "lovelacePerUTxOWord")
  let executionPrices ← ExecutionPrices.fromJson (← j.at "executionPrices")
  let maxTxExUnits ← ExecutionUnits.fromJson (← j.at "maxTxExUnits")
  let maxBlockExUnits ← ExecutionUnits.fromJson (← j.at "maxBlockExUnits")
  let maxValueSize ← getUNarrow 32 (← j.at "maxValueSize")
  let collateralPercentage ← getUNarrow 32 (← j.at "collateralPercentage")
  let maxCollateralInputs ← getUNarrow 32 (← j.at "maxCollateralInputs")
  let costModels ← CostModels.fromJson (← j.at "costModels")
  return { lovelacePerUtxoWord, executionPrices, maxTxExUnits, maxBlockExUnits, maxValueSize, collateralPercentage, maxCollateralInputs, costModels }

end Alonzo

/-! ## Conway (src/conway/genesis.cpp) -/

namespace Conway

/-- `PoolVotingThresholds` (include/cardano/genesis.hpp:308-318). -/
structure PoolVotingThresholds where
  committeeNormal : Dbl
  committeeNoConfidence : Dbl
  hardForkInitiation : Dbl
  motionNoConfidence : Dbl
  ppSecurityGroup : Dbl
  deriving DecidableEq, Repr

/-- `to_json` (src/conway/genesis.cpp:27-36). -/
def PoolVotingThresholds.toJson (x : PoolVotingThresholds) : J :=
  mkObj [
    ("committeeNormal", J.float x.committeeNormal),
    ("committeeNoConfidence", J.float x.committeeNoConfidence),
    ("hardForkInitiation", J.float x.hardForkInitiation),
    ("motionNoConfidence", J.float x.motionNoConfidence),
    ("ppSecurityGroup", J.float x.ppSecurityGroup)]

/-- `from_json` (src/conway/genesis.cpp:38-45). -/
def PoolVotingThresholds.fromJson (j : J) : Out PoolVotingThresholds := do
  let committeeNormal ← getDbl (← j.at "committeeNormal")
  let committeeNoConfidence ← getDbl (← j.at "committeeNoConfidence")
  let hardForkInitiation ← getDbl (← j.at "hardForkInitiation")
  let motionNoConfidence ← getDbl (← j.at "motionNoConfidence")
  let ppSecurityGroup ← getDbl (← j.at "ppSecurityGroup")
  return { committeeNormal, committeeNoConfidence, hardForkInitiation, motionNoConfidence, ppSecurityGroup }

/-- `DRepVotingThresholds` (include/cardano/genesis.hpp:322-337). -/
structure DRepVotingThresholds where
  motionNoConfidence : Dbl
  committeeNormal : Dbl
  committeeNoConfidence : Dbl
  updateToConstitution : Dbl
  hardForkInitiation : Dbl
  ppNetworkGroup : Dbl
  ppEconomicGroup : Dbl
  ppTechnicalGroup : Dbl
  ppGovGroup : Dbl
  treasuryWithdrawal : Dbl
  deriving DecidableEq, Repr

/-- `to_json` (src/conway/genesis.cpp:47-61). -/
def DRepVotingThresholds.toJson (x : DRepVotingThresholds) : J :=
  mkObj [
    ("motionNoConfidence", J.float x.motionNoConfidence),
    ("committeeNormal", J.float x.committeeNormal),
    ("committeeNoConfidence", J.float x.committeeNoConfidence),
    ("updateToConstitution", J.float x.updateToConstitution),
    ("hardForkInitiation", J.float x.hardForkInitiation),
    ("ppNetworkGroup", J.float x.ppNetworkGroup),
    ("ppEconomicGroup", J.float x.ppEconomicGroup),
    ("ppTechnicalGroup", J.float x.ppTechnicalGroup),
    ("ppGovGroup", J.float x.ppGovGroup),
    ("treasuryWithdrawal", J.float x.treasuryWithdrawal)]

/-- `from_json` (src/conway/genesis.cpp:63-75). -/
def DRepVotingThresholds.fromJson (j : J) : Out DRepVotingThresholds := do
  let motionNoConfidence ← getDbl (← j.at "motionNoConfidence")
  let committeeNormal ← getDbl (← j.at "committeeNormal")
  let committeeNoConfidence ← getDbl (← j.at "committeeNoConfidence")
  let updateToConstitution ← getDbl (← j.at "updateToConstitution")
  let hardForkInitiation ← getDbl (← j.at "hardForkInitiation")
  let ppNetworkGroup ← getDbl (← j.at "ppNetworkGroup")
  let ppEconomicGroup ← getDbl (← j.at "ppEconomicGroup")
  let ppTechnicalGroup ← getDbl (← j.at "ppTechnicalGroup")
  let ppGovGroup ← getDbl (← j.at "ppGovGroup")
  let treasuryWithdrawal ← getDbl (← j.at "treasuryWithdrawal")
  return { motionNoConfidence, committeeNormal, committeeNoConfidence, updateToConstitution, hardForkInitiation, ppNetworkGroup, ppEconomicGroup, ppTechnicalGroup, ppGovGroup, treasuryWithdrawal }

/-- `ConstitutionAnchor` (include/cardano/genesis.hpp:341-348). -/
structure ConstitutionAnchor where
  dataHash : String
  url : String
  deriving DecidableEq, Repr

/-- `to_json` (src/conway/genesis.cpp:77-80). -/
def ConstitutionAnchor.toJson (x : ConstitutionAnchor) : J :=
  mkObj [
    ("dataHash", J.str x.dataHash),
    ("url", J.str x.url)]

/-- `from_json` (src/conway/genesis.cpp:82-86). -/
def ConstitutionAnchor.fromJson (j : J) : Out ConstitutionAnchor := do
  let dataHash ← getStr (← j.at "dataHash")
  let url ← getStr (← j.at "url")
  return { dataHash, url }

/-- `Constitution` (include/cardano/genesis.hpp:352-359). -/
structure Constitution where
  anchor : ConstitutionAnchor
  script : String
  deriving DecidableEq, Repr

/-- `to_json` (src/conway/genesis.cpp:88-91). -/
def Constitution.toJson (x : Constitution) : J :=
  mkObj [
    ("anchor", ConstitutionAnchor.toJson x.anchor),
    ("script", J.str x.script)]

/-- `from_json` (src/conway/genesis.cpp:93-97). -/
def Constitution.fromJson (j : J) : Out Constitution := do
  let anchor ← ConstitutionAnchor.fromJson (← j.at "anchor")
  let script ← getStr (← j.at "script")
  return { anchor, script }

/-- `CommitteeThreshold` (include/cardano/genesis.hpp:363-370). -/
structure CommitteeThreshold where
  numerator : Nat
  denominator : Nat
  deriving DecidableEq, Repr

/-- `to_json` (src/conway/genesis.cpp:99-102). -/
def CommitteeThreshold.toJson (x : CommitteeThreshold) : J :=
  mkObj [
    ("numerator", J.uint x.numerator),
    ("denominator", J.uint x.denominator)]

/-- `from_json` (src/conway/genesis.cpp:104-108). -/
def CommitteeThreshold.fromJson (j : J) : Out CommitteeThreshold := do
  let numerator ← getU64 (← j.at "numerator")
  let denominator ← getU64 (← j.at "denominator")
  return { numerator, denominator }

/-- `Committee` (include/cardano/genesis.hpp:374-381). -/
structure Committee where
  members : Map Nat
  threshold : CommitteeThreshold
  deriving DecidableEq, Repr

/-- `to_json` (src/conway/genesis.cpp:110-113). -/
def Committee.toJson (x : Committee) : J :=
  mkObj [
    ("members", mapJ J.uint x.members),
    ("threshold", CommitteeThreshold.toJson x.threshold)]

/-- `from_json` (src/conway/genesis.cpp:115-119). -/
def Committee.fromJson (j : J) : Out Committee := do
  let members ← getMap getU64 (← j.at "members")
  let threshold ← CommitteeThreshold.fromJson (← j.at "threshold")
  return { members, threshold }

/-- `GenesisParameters` (include/cardano/genesis.hpp:384-406). -/
structure Params where
  poolVotingThresholds : PoolVotingThresholds
  drepVotingThresholds : DRepVotingThresholds
  committeeMinSize : Nat
  committeeMaxTermLength : Nat
  govActionLifetime : Nat
  govActionDeposit : Nat
  drepDeposit : Nat
  drepActivity : Nat
  minFeeRefScriptCostPerByte : Nat
  plutusV3CostModel : List Int
  constitution : Constitution
  committee : Committee
  deriving DecidableEq, Repr

/-- `to_json` (src/conway/genesis.cpp:121-137). -/
def Params.toJson (x : Params) : J :=
  mkObj [
    ("poolVotingThresholds", PoolVotingThresholds.toJson x.poolVotingThresholds),
    ("dRepVotingThresholds", DRepVotingThresholds.toJson x.drepVotingThresholds),
    ("committeeMinSize", J.uint x.committeeMinSize),
    ("committeeMaxTermLength", J.uint x.committeeMaxTermLength),
    ("govActionLifetime", J.uint x.govActionLifetime),
    ("govActionDeposit", J.uint x.govActionDeposit),
    ("dRepDeposit", J.uint x.drepDeposit),
    ("dRepActivity", J.uint x.drepActivity),
    ("minFeeRefScriptCostPerByte", J.uint x.minFeeRefScriptCostPerByte),
    ("plutusV3CostModel", arrJ J.sint x.plutusV3CostModel),
    ("constitution", Constitution.toJson x.constitution),
    ("committee", Committee.toJson x.committee)]

/-- `from_json` (src/conway/genesis.cpp:139-154). -/
def Params.fromJson (j : J) : Out Params := do
  let poolVotingThresholds ← PoolVotingThresholds.fromJson (← j.at "poolVotingThresholds")
  let drepVotingThresholds ← DRepVotingThresholds.fromJson (← j.at "dRepVotingThresholds")
  let committeeMinSize ← getU64 (← j.at "committeeMinSize")
  let committeeMaxTermLength ← getU64 (← j.at "committeeMaxTermLength")
  let govActionLifetime ← getU64 (← j.at "govActionLifetime")
  let govActionDeposit ← getU64 (← j.at "govActionDeposit")
  let drepDeposit ← getU64 (← j.at "dRepDeposit")
  let drepActivity ← getU64 (← j.at "dRepActivity")
  let minFeeRefScriptCostPerByte ← getU64 (← j.at "minFeeRefScriptCostPerByte")
  let plutusV3CostModel ← getArr 251 getI64 (← j.at "plutusV3CostModel")
  let constitution ← Constitution.fromJson (← j.at "constitution")
  let committee ← Committee.fromJson (← j.at "committee")
  return { poolVotingThresholds, drepVotingThresholds, committeeMinSize, committeeMaxTermLength, govActionLifetime, govActionDeposit, drepDeposit, drepActivity, minFeeRefScriptCostPerByte, plutusV3CostModel, constitution, committee }

end Conway

/-- `GenesisParameters::fromFile` of each era (src/byron/genesis.cpp:174-185,
src/shelley/genesis.cpp:140-151, src/alonzo/genesis.cpp:98-109,
src/conway/genesis.cpp:156-167): `file` is none if the file cannot be opened, and its content
as far as the parser accepts it. -/
def fromFile {α} (fromJson : J → Out α) (file : Option (Option J)) : Out α :=
  match file with
  | none => .throw .runtimeError
  | some none => .throw .other
  | some (some j) => fromJson j

end Cardano.Genesis
