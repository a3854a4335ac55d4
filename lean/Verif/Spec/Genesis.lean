import Verif.Model.Genesis

/-! # Genesis file formats

The shape of the JSON documents, and what it means that two documents agree on everything
the format defines. -/

namespace Cardano.Genesis

open Cardano Cardano.Util

/-- Shapes of JSON documents. -/
inductive Schema where
  /-- a natural number below `2^w` -/
  | uint (w : Nat)
  /-- a whole number of 64 bits with sign -/
  | int64
  /-- a number (exactly representable as a double) -/
  | num
  | str
  /-- an object with arbitrary keys -/
  | map (s : Schema)
  /-- an array of `n` elements -/
  | arr (n : Nat) (s : Schema)
  /-- an object that has these keys (and perhaps others) -/
  | obj (fields : List (String × Schema))

/-- The whole number a JSON value stands for. -/
def J.whole : J → Option Int
  | .uint n => some n
  | .sint z => some z
  | _ => none

/-- The number a JSON value stands for, if a double can hold it exactly (whole numbers up to
2^53). -/
def J.number : J → Option Dbl
  | .float d => some d
  | .uint n => if n < 2 ^ 53 then some (.fin false n 0) else none
  | .sint z => if z.natAbs < 2 ^ 53 then some (.fin (decide (z < 0)) z.natAbs 0) else none
  | _ => none

mutual
/-- `a` and `b` both have the shape, and agree on everything the shape describes. -/
def Agree : Schema → J → J → Prop
  | .uint w, a, b => ∃ n : Nat, n < 2 ^ w ∧ a.whole = some (n : Int) ∧ b.whole = some (n : Int)
  | .int64, a, b => ∃ z : Int, -2 ^ 63 ≤ z ∧ z < 2 ^ 63 ∧ a.whole = some z ∧ b.whole = some z
  | .num, a, b => ∃ d, a.number = some d ∧ b.number = some d
  | .str, a, b => ∃ s, a = .str s ∧ b = .str s
  | .map s, a, b => ∃ la lb, a = .obj la ∧ b = .obj lb ∧ List.Pairwise (fun p q => p.1 < q.1) la ∧
      List.Forall₂ (fun p q => p.1 = q.1 ∧ Agree s p.2 q.2) la lb
  | .arr n s, a, b => ∃ la lb, a = .arr la ∧ b = .arr lb ∧ la.length = n ∧ List.Forall₂ (fun p q => Agree s p q) la lb
  | .obj fs, a, b => AgreeFields fs a b
/-- Both are objects with these keys and agree on them. -/
def AgreeFields : List (String × Schema) → J → J → Prop
  | [], _, _ => True
  | (k, s) :: fs, a, b => (∃ x y, a.get? k = some x ∧ b.get? k = some y ∧ Agree s x y) ∧ AgreeFields fs a b
end

/-- The document has the shape. -/
def HasShape (s : Schema) (j : J) : Prop := Agree s j j

/-- How a JSON value is turned into a `w`-bit unsigned number: whole numbers modulo `2^w`,
other numbers by dropping the fraction, and booleans if the type is narrower than 64 bits. -/
inductive ToUnsigned (w : Nat) : J → Nat → Prop
  | whole {a z} {n : Nat} : a.whole = some z → n < 2 ^ w → (2 ^ w : Int) ∣ z - n → ToUnsigned w a n
  | fraction {neg m e n} : (neg = false ∨ n = 0) → n * 2 ^ e ≤ m → m < (n + 1) * 2 ^ e → n < 2 ^ w →
      ToUnsigned w (.float (.fin neg m e)) n
  | bool {b} : w ≠ 64 → ToUnsigned w (.bool b) (if b then 1 else 0)

/-- The same for signed 64-bit numbers. -/
inductive ToSigned : J → Int → Prop
  | whole {a z} {n : Int} : a.whole = some z → -2 ^ 63 ≤ n → n < 2 ^ 63 → (2 ^ 64 : Int) ∣ z - n → ToSigned a n
  | fraction {neg m e} {n : Int} : (if neg then n ≤ 0 else 0 ≤ n) → n.natAbs * 2 ^ e ≤ m → m < (n.natAbs + 1) * 2 ^ e →
      -2 ^ 63 ≤ n → n < 2 ^ 63 → ToSigned (.float (.fin neg m e)) n

/-- Whole numbers that are binary64 values (below the overflow threshold, far above 2^64). -/
def IsDouble (m : Nat) : Prop := ∃ q e, q < 2 ^ 53 ∧ m = q * 2 ^ e

/-- IEEE 754 rounding of a whole number to nearest, ties to even: `r` is a double, none is nearer to `n`,
and if another one is as near then the last bit of `r`'s significand is 0. -/
def RoundsTo (n r : Nat) : Prop :=
  IsDouble r ∧ ∀ m, IsDouble m → Int.natAbs ((r : Int) - n) ≤ Int.natAbs ((m : Int) - n) ∧
    (Int.natAbs ((m : Int) - n) = Int.natAbs ((r : Int) - n) → m ≠ r →
      ∃ q e, 2 ^ 52 ≤ q ∧ q < 2 ^ 53 ∧ q % 2 = 0 ∧ r = q * 2 ^ e)

/-- The same for doubles: rounded to nearest, ties to even. -/
inductive ToDouble : J → Dbl → Prop
  | float {d} : ToDouble (.float d) d
  | whole {a z} {r : Nat} : a.whole = some z → RoundsTo z.natAbs r → ToDouble a (.fin (decide (z < 0)) r 0)

mutual
/-- `b` is what is left of `a` after reading it into a structure of the given shape: all keys
are there, all values have the right kind, numbers are converted; an array may be longer. -/
def Reads : Schema → J → J → Prop
  | .uint w, a, b => ∃ n, b = .uint n ∧ ToUnsigned w a n
  | .int64, a, b => ∃ n, b = .sint n ∧ ToSigned a n
  | .num, a, b => ∃ d, b = .float d ∧ ToDouble a d
  | .str, a, b => ∃ s, a = .str s ∧ b = .str s
  | .map s, a, b => ∃ la lb, a = .obj la ∧ b = .obj lb ∧ List.Forall₂ (fun p q => p.1 = q.1 ∧ Reads s p.2 q.2) la lb
  | .arr n s, a, b => ∃ la lb, a = .arr la ∧ b = .arr lb ∧ n ≤ la.length ∧ List.Forall₂ (fun p q => Reads s p q) (la.take n) lb
  | .obj fs, a, b => ReadsFields fs a b
/-- All these keys are there and are read. -/
def ReadsFields : List (String × Schema) → J → J → Prop
  | [], _, _ => True
  | (k, s) :: fs, a, b => (∃ x y, a.get? k = some x ∧ b.get? k = some y ∧ Reads s x y) ∧ ReadsFields fs a b
end

/-- What the type `std::map<std::string, T>` guarantees. -/
def MapWF {α} (ok : α → Prop) (m : Map α) : Prop := List.Pairwise (fun p q => p.1 < q.1) m ∧ ∀ p ∈ m, ok p.2


/-! ## Byron -/

namespace Byron

/-- Format of `SoftforkRule`. -/
def softforkRuleS : Schema :=
  .obj [
    ("initThd", .str), ("minThd", .str), ("thdDecrement", .str)]

/-- What the field types of `SoftforkRule` guarantee. -/
def SoftforkRule.WF (_ : SoftforkRule) : Prop :=
  True

/-- Format of `TxFeePolicy`. -/
def txFeePolicyS : Schema :=
  .obj [
    ("multiplier", .str), ("summand", .str)]

/-- What the field types of `TxFeePolicy` guarantee. -/
def TxFeePolicy.WF (_ : TxFeePolicy) : Prop :=
  True

/-- Format of `BlockVersionData`. -/
def blockVersionDataS : Schema :=
  .obj [
    ("heavyDelThd", .str), ("maxBlockSize", .str), ("maxHeaderSize", .str), ("maxProposalSize", .str),
    ("maxTxSize", .str), ("mpcThd", .str), ("scriptVersion", .uint 16), ("slotDuration", .str),
    ("softforkRule", softforkRuleS), ("txFeePolicy", txFeePolicyS), ("unlockStakeEpoch", .str),
    ("updateImplicit", .str), ("updateProposalThd", .str), ("updateVoteThd", .str)]

/-- What the field types of `BlockVersionData` guarantee. -/
def BlockVersionData.WF (x : BlockVersionData) : Prop :=
  x.scriptVersion < 2 ^ 16 ∧ x.softforkRule.WF ∧ x.txFeePolicy.WF

/-- Format of `ProtocolConsts`. -/
def protocolConstsS : Schema :=
  .obj [
    ("k", .uint 32), ("protocolMagic", .uint 32), ("vssMaxTTL", .uint 32), ("vssMinTTL", .uint 32)]

/-- What the field types of `ProtocolConsts` guarantee. -/
def ProtocolConsts.WF (x : ProtocolConsts) : Prop :=
  x.k < 2 ^ 32 ∧ x.protocolMagic < 2 ^ 32 ∧ x.vssMaxTtl < 2 ^ 32 ∧ x.vssMinTtl < 2 ^ 32

/-- Format of `DelegationData`. -/
def delegationDataS : Schema :=
  .obj [
    ("cert", .str), ("delegatePk", .str), ("issuerPk", .str), ("omega", .uint 64)]

/-- What the field types of `DelegationData` guarantee. -/
def DelegationData.WF (x : DelegationData) : Prop :=
  x.omega < 2 ^ 64

/-- Format of `VssCert`. -/
def vssCertS : Schema :=
  .obj [
    ("expiryEpoch", .uint 32), ("signature", .str), ("signingKey", .str), ("vssKey", .str)]

/-- What the field types of `VssCert` guarantee. -/
def VssCert.WF (x : VssCert) : Prop :=
  x.expiryEpoch < 2 ^ 32

/-- Format of `Params`. -/
def paramsS : Schema :=
  .obj [
    ("avvmDistr", .map .str), ("blockVersionData", blockVersionDataS), ("ftsSeed", .str),
    ("protocolConsts", protocolConstsS), ("startTime", .uint 64), ("bootStakeholders", .map (.uint 32)),
    ("heavyDelegation", .map delegationDataS), ("nonAvvmBalances", .map (.uint 64)), ("vssCerts", .map vssCertS)]

/-- What the field types of `Params` guarantee. -/
def Params.WF (x : Params) : Prop :=
  MapWF (fun _ => True) x.avvmDistr ∧ x.blockVersionData.WF ∧ x.protocolConsts.WF ∧ x.startTime < 2 ^ 64 ∧
  MapWF (fun v => v < 2 ^ 32) x.bootStakeholders ∧ MapWF (fun v => v.WF) x.heavyDelegation ∧
  MapWF (fun v => v < 2 ^ 64) x.nonAvvmBalances ∧ MapWF (fun v => v.WF) x.vssCerts

end Byron

/-! ## Shelley -/

namespace Shelley

/-- Format of `ProtocolVersion`. -/
def protocolVersionS : Schema :=
  .obj [
    ("major", .uint 32), ("minor", .uint 32)]

/-- What the field types of `ProtocolVersion` guarantee. -/
def ProtocolVersion.WF (x : ProtocolVersion) : Prop :=
  x.major < 2 ^ 32 ∧ x.minor < 2 ^ 32

/-- Format of `ExtraEntropy`. -/
def extraEntropyS : Schema :=
  .obj [
    ("tag", .str)]

/-- What the field types of `ExtraEntropy` guarantee. -/
def ExtraEntropy.WF (_ : ExtraEntropy) : Prop :=
  True

/-- Format of `ProtocolParameters`. -/
def protocolParametersS : Schema :=
  .obj [
    ("protocolVersion", protocolVersionS), ("decentralisationParam", .uint 64), ("eMax", .uint 64),
    ("extraEntropy", extraEntropyS), ("maxTxSize", .uint 64), ("maxBlockBodySize", .uint 64),
    ("maxBlockHeaderSize", .uint 64), ("minFeeA", .uint 64), ("minFeeB", .uint 64), ("minUTxOValue", .uint 64),
    ("poolDeposit", .uint 64), ("minPoolCost", .uint 64), ("keyDeposit", .uint 64), ("nOpt", .uint 64),
    ("rho", .num), ("tau", .num), ("a0", .num)]

/-- What the field types of `ProtocolParameters` guarantee. -/
def ProtocolParameters.WF (x : ProtocolParameters) : Prop :=
  x.protocolVersion.WF ∧ x.decentralisationParam < 2 ^ 64 ∧ x.eMax < 2 ^ 64 ∧ x.extraEntropy.WF ∧
  x.maxTxSize < 2 ^ 64 ∧ x.maxBlockBodySize < 2 ^ 64 ∧ x.maxBlockHeaderSize < 2 ^ 64 ∧ x.minFeeA < 2 ^ 64 ∧
  x.minFeeB < 2 ^ 64 ∧ x.minUtxoValue < 2 ^ 64 ∧ x.poolDeposit < 2 ^ 64 ∧ x.minPoolCost < 2 ^ 64 ∧
  x.keyDeposit < 2 ^ 64 ∧ x.nOpt < 2 ^ 64

/-- Format of `GenDeleg`. -/
def genDelegS : Schema :=
  .obj [
    ("delegate", .str), ("vrf", .str)]

/-- What the field types of `GenDeleg` guarantee. -/
def GenDeleg.WF (_ : GenDeleg) : Prop :=
  True

/-- Format of `Params`. -/
def paramsS : Schema :=
  .obj [
    ("activeSlotsCoeff", .num), ("protocolParams", protocolParametersS), ("genDelegs", .map genDelegS),
    ("updateQuorum", .uint 64), ("networkId", .str), ("maxLovelaceSupply", .uint 64), ("networkMagic", .uint 64),
    ("epochLength", .uint 64), ("systemStart", .str), ("slotsPerKESPeriod", .uint 64), ("slotLength", .uint 64),
    ("maxKESEvolutions", .uint 64), ("securityParam", .uint 64)]

/-- What the field types of `Params` guarantee. -/
def Params.WF (x : Params) : Prop :=
  x.protocolParameters.WF ∧ MapWF (fun v => v.WF) x.genDelegs ∧ x.updateQuorum < 2 ^ 64 ∧
  x.maxLovelaceSupply < 2 ^ 64 ∧ x.networkMagic < 2 ^ 64 ∧ x.epochLength < 2 ^ 64 ∧
  x.slotsPerKesPeriod < 2 ^ 64 ∧ x.slotLength < 2 ^ 64 ∧ x.maxKesEvolutions < 2 ^ 64 ∧
  x.securityParam < 2 ^ 64

end Shelley

/-! ## Alonzo -/

namespace Alonzo

/-- Format of `PriceFraction`. -/
def priceFractionS : Schema :=
  .obj [
    ("numerator", .int64), ("denominator", .int64)]

/-- What the field types of `PriceFraction` guarantee. -/
def PriceFraction.WF (x : PriceFraction) : Prop :=
  (-2 ^ 63 ≤ x.numerator ∧ x.numerator < 2 ^ 63) ∧ (-2 ^ 63 ≤ x.denominator ∧ x.denominator < 2 ^ 63)

/-- Format of `ExecutionPrices`. -/
def executionPricesS : Schema :=
  .obj [
    ("prSteps", priceFractionS), ("prMem", priceFractionS)]

/-- What the field types of `ExecutionPrices` guarantee. -/
def ExecutionPrices.WF (x : ExecutionPrices) : Prop :=
  x.prSteps.WF ∧ x.prMem.WF

/-- Format of `ExecutionUnits`. -/
def executionUnitsS : Schema :=
  .obj [
    ("exUnitsMem", .uint 64), ("exUnitsSteps", .uint 64)]

/-- What the field types of `ExecutionUnits` guarantee. -/
def ExecutionUnits.WF (x : ExecutionUnits) : Prop :=
  x.exUnitsMem < 2 ^ 64 ∧ x.exUnitsSteps < 2 ^ 64

/-- Format of `CostModels`. -/
def costModelsS : Schema :=
  .obj [
    ("PlutusV1", .map .int64)]

/-- What the field types of `CostModels` guarantee. -/
def CostModels.WF (x : CostModels) : Prop :=
  (MapWF (fun v => -2 ^ 63 ≤ v ∧ v < 2 ^ 63) x.plutusV1)

/-- Format of `Params`. -/
def paramsS : Schema :=
  .obj [
    ("lovelacePerUTxOWord", .uint 64), ("executionPrices", executionPricesS), ("maxTxExUnits", executionUnitsS),
    ("maxBlockExUnits", executionUnitsS), ("maxValueSize", .uint 32), ("collateralPercentage", .uint 32),
    ("maxCollateralInputs", .uint 32), ("costModels", costModelsS)]

/-- What the field types of `Params` guarantee. -/
def Params.WF (x : Params) : Prop :=
  x.lovelacePerUtxoWord < 2 ^ 64 ∧ x.executionPrices.WF ∧ x.maxTxExUnits.WF ∧ x.maxBlockExUnits.WF ∧
  x.maxValueSize < 2 ^ 32 ∧ x.collateralPercentage < 2 ^ 32 ∧ x.maxCollateralInputs < 2 ^ 32 ∧ x.costModels.WF

end Alonzo

/-! ## Conway -/

namespace Conway

/-- Format of `PoolVotingThresholds`. -/
def poolVotingThresholdsS : Schema :=
  .obj [
    ("committeeNormal", .num), ("committeeNoConfidence", .num), ("hardForkInitiation", .num),
    ("motionNoConfidence", .num), ("ppSecurityGroup", .num)]

/-- What the field types of `PoolVotingThresholds` guarantee. -/
def PoolVotingThresholds.WF (_ : PoolVotingThresholds) : Prop :=
  True

/-- Format of `DRepVotingThresholds`. -/
def dRepVotingThresholdsS : Schema :=
  .obj [
    ("motionNoConfidence", .num), ("committeeNormal", .num), ("committeeNoConfidence", .num),
    ("updateToConstitution", .num), ("hardForkInitiation", .num), ("ppNetworkGroup", .num),
    ("ppEconomicGroup", .num), ("ppTechnicalGroup", .num), ("ppGovGroup", .num), ("treasuryWithdrawal", .num)]

/-- What the field types of `DRepVotingThresholds` guarantee. -/
def DRepVotingThresholds.WF (_ : DRepVotingThresholds) : Prop :=
  True

/-- Format of `ConstitutionAnchor`. -/
def constitutionAnchorS : Schema :=
  .obj [
    ("dataHash", .str), ("url", .str)]

/-- What the field types of `ConstitutionAnchor` guarantee. -/
def ConstitutionAnchor.WF (_ : ConstitutionAnchor) : Prop :=
  True

/-- Format of `Constitution`. -/
def constitutionS : Schema :=
  .obj [
    ("anchor", constitutionAnchorS), ("script", .str)]

/-- What the field types of `Constitution` guarantee. -/
def Constitution.WF (x : Constitution) : Prop :=
  x.anchor.WF

/-- Format of `CommitteeThreshold`. -/
def committeeThresholdS : Schema :=
  .obj [
    ("numerator", .uint 64), ("denominator", .uint 64)]

/-- What the field types of `CommitteeThreshold` guarantee. -/
def CommitteeThreshold.WF (x : CommitteeThreshold) : Prop :=
  x.numerator < 2 ^ 64 ∧ x.denominator < 2 ^ 64

/-- Format of `Committee`. -/
def committeeS : Schema :=
  .obj [
    ("members", .map (.uint 64)), ("threshold", committeeThresholdS)]

/-- What the field types of `Committee` guarantee. -/
def Committee.WF (x : Committee) : Prop :=
  MapWF (fun v => v < 2 ^ 64) x.members ∧ x.threshold.WF

/-- Format of `Params`. -/
def paramsS : Schema :=
  .obj [
    ("poolVotingThresholds", poolVotingThresholdsS), ("dRepVotingThresholds", dRepVotingThresholdsS),
    ("committeeMinSize", .uint 64), ("committeeMaxTermLength", .uint 64), ("govActionLifetime", .uint 64),
    ("govActionDeposit", .uint 64), ("dRepDeposit", .uint 64), ("dRepActivity", .uint 64),
    ("minFeeRefScriptCostPerByte", .uint 64), ("plutusV3CostModel", .arr 251 .int64),
    ("constitution", constitutionS), ("committee", committeeS)]

/-- What the field types of `Params` guarantee. -/
def Params.WF (x : Params) : Prop :=
  x.poolVotingThresholds.WF ∧ x.drepVotingThresholds.WF ∧ x.committeeMinSize < 2 ^ 64 ∧
  x.committeeMaxTermLength < 2 ^ 64 ∧ x.govActionLifetime < 2 ^ 64 ∧ x.govActionDeposit < 2 ^ 64 ∧
  x.drepDeposit < 2 ^ 64 ∧ x.drepActivity < 2 ^ 64 ∧ x.minFeeRefScriptCostPerByte < 2 ^ 64 ∧
  (x.plutusV3CostModel.length = 251 ∧ ∀ v ∈ x.plutusV3CostModel, -2 ^ 63 ≤ v ∧ v < 2 ^ 63) ∧ x.constitution.WF ∧
  x.committee.WF

end Conway

end Cardano.Genesis
