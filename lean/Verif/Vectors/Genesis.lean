import Verif.Vectors.Vrf
import Verif.Model.Genesis

/-! # Test vectors: the genesis files of the main network

test/test_cardano_genesis_api.cpp on the files of test/data/genesis (as the JSON parser delivers them; the Byron file is too
long, its protocol constants are used).  Tests of the model, as in `Verif.Vectors.Keys`. -/

namespace Cardano.Vectors

open Cardano Cardano.Genesis

/-- shelley-genesis.json -/
def shelleyFile : J := .obj [("activeSlotsCoeff", .float (.fin false 3602879701896397 56)),
  ("epochLength", .uint 432000),
  ("genDelegs", .obj [("162f94554ac8c225383a2248c245659eda870eaa82d0ef25fc7dcd82", .obj [("delegate", .str "4485708022839a7b9b8b639a939c85ec0ed6999b5b6dc651b03c43f6"),
  ("vrf", .str "aba81e764b71006c515986bf7b37a72fbb5554f78e6775f08e384dbd572a4b32")]),
  ("2075a095b3c844a29c24317a94a643ab8e22d54a3a3a72a420260af6", .obj [("delegate", .str "6535db26347283990a252313a7903a45e3526ec25ddba381c071b25b"),
  ("vrf", .str "fcaca997b8105bd860876348fc2c6e68b13607f9bbd23515cd2193b555d267af")]),
  ("268cfc0b89e910ead22e0ade91493d8212f53f3e2164b2e4bef0819b", .obj [("delegate", .str "1d4f2e1fda43070d71bb22a5522f86943c7c18aeb4fa47a362c27e23"),
  ("vrf", .str "63ef48bc5355f3e7973100c371d6a095251c80ceb40559f4750aa7014a6fb6db")]),
  ("60baee25cbc90047e83fd01e1e57dc0b06d3d0cb150d0ab40bbfead1", .obj [("delegate", .str "7f72a1826ae3b279782ab2bc582d0d2958de65bd86b2c4f82d8ba956"),
  ("vrf", .str "c0546d9aa5740afd569d3c2d9c412595cd60822bb6d9a4e8ce6c43d12bd0f674")]),
  ("ad5463153dc3d24b9ff133e46136028bdc1edbb897f5a7cf1b37950c", .obj [("delegate", .str "d9e5c76ad5ee778960804094a389f0b546b5c2b140a62f8ec43ea54d"),
  ("vrf", .str "64fa87e8b29a5b7bfbd6795677e3e878c505bc4a3649485d366b50abadec92d7")]),
  ("b9547b8a57656539a8d9bc42c008e38d9c8bd9c8adbb1e73ad529497", .obj [("delegate", .str "855d6fc1e54274e331e34478eeac8d060b0b90c1f9e8a2b01167c048"),
  ("vrf", .str "66d5167a1f426bd1adcc8bbf4b88c280d38c148d135cb41e3f5a39f948ad7fcc")]),
  ("f7b341c14cd58fca4195a9b278cce1ef402dc0e06deb77e543cd1757", .obj [("delegate", .str "69ae12f9e45c0c9122356c8e624b1fbbed6c22a2e3b4358cf0cb5011"),
  ("vrf", .str "6394a632af51a32768a6f12dac3485d9c0712d0b54e3f389f355385762a478f2")])]),
  ("initialFunds", .obj []),
  ("maxKESEvolutions", .uint 62),
  ("maxLovelaceSupply", .uint 45000000000000000),
  ("networkId", .str "Mainnet"),
  ("networkMagic", .uint 764824073),
  ("protocolParams", .obj [("a0", .float (.fin false 5404319552844595 54)),
  ("decentralisationParam", .uint 1),
  ("eMax", .uint 18),
  ("extraEntropy", .obj [("tag", .str "NeutralNonce")]),
  ("keyDeposit", .uint 2000000),
  ("maxBlockBodySize", .uint 65536),
  ("maxBlockHeaderSize", .uint 1100),
  ("maxTxSize", .uint 16384),
  ("minFeeA", .uint 44),
  ("minFeeB", .uint 155381),
  ("minPoolCost", .uint 340000000),
  ("minUTxOValue", .uint 1000000),
  ("nOpt", .uint 150),
  ("poolDeposit", .uint 500000000),
  ("protocolVersion", .obj [("major", .uint 2),
  ("minor", .uint 0)]),
  ("rho", .float (.fin false 3458764513820541 60)),
  ("tau", .float (.fin false 3602879701896397 54))]),
  ("securityParam", .uint 2160),
  ("slotLength", .uint 1),
  ("slotsPerKESPeriod", .uint 129600),
  ("systemStart", .str "2017-09-23T21:44:51Z"),
  ("updateQuorum", .uint 5)]

/-- alonzo-genesis.json -/
def alonzoFile : J := .obj [("collateralPercentage", .uint 150),
  ("costModels", .obj [("PlutusV1", .obj [("addInteger-cpu-arguments-intercept", .uint 197209),
  ("addInteger-cpu-arguments-slope", .uint 0),
  ("addInteger-memory-arguments-intercept", .uint 1),
  ("addInteger-memory-arguments-slope", .uint 1),
  ("appendByteString-cpu-arguments-intercept", .uint 396231),
  ("appendByteString-cpu-arguments-slope", .uint 621),
  ("appendByteString-memory-arguments-intercept", .uint 0),
  ("appendByteString-memory-arguments-slope", .uint 1),
  ("appendString-cpu-arguments-intercept", .uint 150000),
  ("appendString-cpu-arguments-slope", .uint 1000),
  ("appendString-memory-arguments-intercept", .uint 0),
  ("appendString-memory-arguments-slope", .uint 1),
  ("bData-cpu-arguments", .uint 150000),
  ("bData-memory-arguments", .uint 32),
  ("blake2b-cpu-arguments-intercept", .uint 2477736),
  ("blake2b-cpu-arguments-slope", .uint 29175),
  ("blake2b-memory-arguments", .uint 4),
  ("cekApplyCost-exBudgetCPU", .uint 29773),
  ("cekApplyCost-exBudgetMemory", .uint 100),
  ("cekBuiltinCost-exBudgetCPU", .uint 29773),
  ("cekBuiltinCost-exBudgetMemory", .uint 100),
  ("cekConstCost-exBudgetCPU", .uint 29773),
  ("cekConstCost-exBudgetMemory", .uint 100),
  ("cekDelayCost-exBudgetCPU", .uint 29773),
  ("cekDelayCost-exBudgetMemory", .uint 100),
  ("cekForceCost-exBudgetCPU", .uint 29773),
  ("cekForceCost-exBudgetMemory", .uint 100),
  ("cekLamCost-exBudgetCPU", .uint 29773),
  ("cekLamCost-exBudgetMemory", .uint 100),
  ("cekStartupCost-exBudgetCPU", .uint 100),
  ("cekStartupCost-exBudgetMemory", .uint 100),
  ("cekVarCost-exBudgetCPU", .uint 29773),
  ("cekVarCost-exBudgetMemory", .uint 100),
  ("chooseData-cpu-arguments", .uint 150000),
  ("chooseData-memory-arguments", .uint 32),
  ("chooseList-cpu-arguments", .uint 150000),
  ("chooseList-memory-arguments", .uint 32),
  ("chooseUnit-cpu-arguments", .uint 150000),
  ("chooseUnit-memory-arguments", .uint 32),
  ("consByteString-cpu-arguments-intercept", .uint 150000),
  ("consByteString-cpu-arguments-slope", .uint 1000),
  ("consByteString-memory-arguments-intercept", .uint 0),
  ("consByteString-memory-arguments-slope", .uint 1),
  ("constrData-cpu-arguments", .uint 150000),
  ("constrData-memory-arguments", .uint 32),
  ("decodeUtf8-cpu-arguments-intercept", .uint 150000),
  ("decodeUtf8-cpu-arguments-slope", .uint 1000),
  ("decodeUtf8-memory-arguments-intercept", .uint 0),
  ("decodeUtf8-memory-arguments-slope", .uint 8),
  ("divideInteger-cpu-arguments-constant", .uint 148000),
  ("divideInteger-cpu-arguments-model-arguments-intercept", .uint 425507),
  ("divideInteger-cpu-arguments-model-arguments-slope", .uint 118),
  ("divideInteger-memory-arguments-intercept", .uint 0),
  ("divideInteger-memory-arguments-minimum", .uint 1),
  ("divideInteger-memory-arguments-slope", .uint 1),
  ("encodeUtf8-cpu-arguments-intercept", .uint 150000),
  ("encodeUtf8-cpu-arguments-slope", .uint 1000),
  ("encodeUtf8-memory-arguments-intercept", .uint 0),
  ("encodeUtf8-memory-arguments-slope", .uint 8),
  ("equalsByteString-cpu-arguments-constant", .uint 150000),
  ("equalsByteString-cpu-arguments-intercept", .uint 112536),
  ("equalsByteString-cpu-arguments-slope", .uint 247),
  ("equalsByteString-memory-arguments", .uint 1),
  ("equalsData-cpu-arguments-intercept", .uint 150000),
  ("equalsData-cpu-arguments-slope", .uint 10000),
  ("equalsData-memory-arguments", .uint 1),
  ("equalsInteger-cpu-arguments-intercept", .uint 136542),
  ("equalsInteger-cpu-arguments-slope", .uint 1326),
  ("equalsInteger-memory-arguments", .uint 1),
  ("equalsString-cpu-arguments-constant", .uint 1000),
  ("equalsString-cpu-arguments-intercept", .uint 150000),
  ("equalsString-cpu-arguments-slope", .uint 1000),
  ("equalsString-memory-arguments", .uint 1),
  ("fstPair-cpu-arguments", .uint 150000),
  ("fstPair-memory-arguments", .uint 32),
  ("headList-cpu-arguments", .uint 150000),
  ("headList-memory-arguments", .uint 32),
  ("iData-cpu-arguments", .uint 150000),
  ("iData-memory-arguments", .uint 32),
  ("ifThenElse-cpu-arguments", .uint 1),
  ("ifThenElse-memory-arguments", .uint 1),
  ("indexByteString-cpu-arguments", .uint 150000),
  ("indexByteString-memory-arguments", .uint 1),
  ("lengthOfByteString-cpu-arguments", .uint 150000),
  ("lengthOfByteString-memory-arguments", .uint 4),
  ("lessThanByteString-cpu-arguments-intercept", .uint 103599),
  ("lessThanByteString-cpu-arguments-slope", .uint 248),
  ("lessThanByteString-memory-arguments", .uint 1),
  ("lessThanEqualsByteString-cpu-arguments-intercept", .uint 103599),
  ("lessThanEqualsByteString-cpu-arguments-slope", .uint 248),
  ("lessThanEqualsByteString-memory-arguments", .uint 1),
  ("lessThanEqualsInteger-cpu-arguments-intercept", .uint 145276),
  ("lessThanEqualsInteger-cpu-arguments-slope", .uint 1366),
  ("lessThanEqualsInteger-memory-arguments", .uint 1),
  ("lessThanInteger-cpu-arguments-intercept", .uint 179690),
  ("lessThanInteger-cpu-arguments-slope", .uint 497),
  ("lessThanInteger-memory-arguments", .uint 1),
  ("listData-cpu-arguments", .uint 150000),
  ("listData-memory-arguments", .uint 32),
  ("mapData-cpu-arguments", .uint 150000),
  ("mapData-memory-arguments", .uint 32),
  ("mkCons-cpu-arguments", .uint 150000),
  ("mkCons-memory-arguments", .uint 32),
  ("mkNilData-cpu-arguments", .uint 150000),
  ("mkNilData-memory-arguments", .uint 32),
  ("mkNilPairData-cpu-arguments", .uint 150000),
  ("mkNilPairData-memory-arguments", .uint 32),
  ("mkPairData-cpu-arguments", .uint 150000),
  ("mkPairData-memory-arguments", .uint 32),
  ("modInteger-cpu-arguments-constant", .uint 148000),
  ("modInteger-cpu-arguments-model-arguments-intercept", .uint 425507),
  ("modInteger-cpu-arguments-model-arguments-slope", .uint 118),
  ("modInteger-memory-arguments-intercept", .uint 0),
  ("modInteger-memory-arguments-minimum", .uint 1),
  ("modInteger-memory-arguments-slope", .uint 1),
  ("multiplyInteger-cpu-arguments-intercept", .uint 61516),
  ("multiplyInteger-cpu-arguments-slope", .uint 11218),
  ("multiplyInteger-memory-arguments-intercept", .uint 0),
  ("multiplyInteger-memory-arguments-slope", .uint 1),
  ("nullList-cpu-arguments", .uint 150000),
  ("nullList-memory-arguments", .uint 32),
  ("quotientInteger-cpu-arguments-constant", .uint 148000),
  ("quotientInteger-cpu-arguments-model-arguments-intercept", .uint 425507),
  ("quotientInteger-cpu-arguments-model-arguments-slope", .uint 118),
  ("quotientInteger-memory-arguments-intercept", .uint 0),
  ("quotientInteger-memory-arguments-minimum", .uint 1),
  ("quotientInteger-memory-arguments-slope", .uint 1),
  ("remainderInteger-cpu-arguments-constant", .uint 148000),
  ("remainderInteger-cpu-arguments-model-arguments-intercept", .uint 425507),
  ("remainderInteger-cpu-arguments-model-arguments-slope", .uint 118),
  ("remainderInteger-memory-arguments-intercept", .uint 0),
  ("remainderInteger-memory-arguments-minimum", .uint 1),
  ("remainderInteger-memory-arguments-slope", .uint 1),
  ("sha2_256-cpu-arguments-intercept", .uint 2477736),
  ("sha2_256-cpu-arguments-slope", .uint 29175),
  ("sha2_256-memory-arguments", .uint 4),
  ("sha3_256-cpu-arguments-intercept", .uint 0),
  ("sha3_256-cpu-arguments-slope", .uint 82363),
  ("sha3_256-memory-arguments", .uint 4),
  ("sliceByteString-cpu-arguments-intercept", .uint 150000),
  ("sliceByteString-cpu-arguments-slope", .uint 5000),
  ("sliceByteString-memory-arguments-intercept", .uint 0),
  ("sliceByteString-memory-arguments-slope", .uint 1),
  ("sndPair-cpu-arguments", .uint 150000),
  ("sndPair-memory-arguments", .uint 32),
  ("subtractInteger-cpu-arguments-intercept", .uint 197209),
  ("subtractInteger-cpu-arguments-slope", .uint 0),
  ("subtractInteger-memory-arguments-intercept", .uint 1),
  ("subtractInteger-memory-arguments-slope", .uint 1),
  ("tailList-cpu-arguments", .uint 150000),
  ("tailList-memory-arguments", .uint 32),
  ("trace-cpu-arguments", .uint 150000),
  ("trace-memory-arguments", .uint 32),
  ("unBData-cpu-arguments", .uint 150000),
  ("unBData-memory-arguments", .uint 32),
  ("unConstrData-cpu-arguments", .uint 150000),
  ("unConstrData-memory-arguments", .uint 32),
  ("unIData-cpu-arguments", .uint 150000),
  ("unIData-memory-arguments", .uint 32),
  ("unListData-cpu-arguments", .uint 150000),
  ("unListData-memory-arguments", .uint 32),
  ("unMapData-cpu-arguments", .uint 150000),
  ("unMapData-memory-arguments", .uint 32),
  ("verifySignature-cpu-arguments-intercept", .uint 3345831),
  ("verifySignature-cpu-arguments-slope", .uint 1),
  ("verifySignature-memory-arguments", .uint 1)])]),
  ("executionPrices", .obj [("prMem", .obj [("denominator", .uint 10000),
  ("numerator", .uint 577)]),
  ("prSteps", .obj [("denominator", .uint 10000000),
  ("numerator", .uint 721)])]),
  ("lovelacePerUTxOWord", .uint 34482),
  ("maxBlockExUnits", .obj [("exUnitsMem", .uint 50000000),
  ("exUnitsSteps", .uint 40000000000)]),
  ("maxCollateralInputs", .uint 3),
  ("maxTxExUnits", .obj [("exUnitsMem", .uint 10000000),
  ("exUnitsSteps", .uint 10000000000)]),
  ("maxValueSize", .uint 5000)]

/-- conway-genesis.json -/
def conwayFile : J := .obj [("committee", .obj [("members", .obj [("scriptHash-349e55f83e9af24813e6cb368df6a80d38951b2a334dfcdf26815558", .uint 580),
  ("scriptHash-84aebcfd3e00d0f87af918fc4b5e00135f407e379893df7e7d392c6a", .uint 580),
  ("scriptHash-b6012034ba0a7e4afbbf2c7a1432f8824aee5299a48e38e41a952686", .uint 580),
  ("scriptHash-ce8b37a72b178a37bbd3236daa7b2c158c9d3604e7aa667e6c6004b7", .uint 580),
  ("scriptHash-df0e83bde65416dade5b1f97e7f115cc1ff999550ad968850783fe50", .uint 580),
  ("scriptHash-e8165b3328027ee0d74b1f07298cb092fd99aa7697a1436f5997f625", .uint 580),
  ("scriptHash-f0dc2c00d92a45521267be2d5de1c485f6f9d14466d7e16062897cf7", .uint 580)]),
  ("threshold", .obj [("denominator", .uint 3),
  ("numerator", .uint 2)])]),
  ("committeeMaxTermLength", .uint 146),
  ("committeeMinSize", .uint 7),
  ("constitution", .obj [("anchor", .obj [("dataHash", .str "ca41a91f399259bcefe57f9858e91f6d00e1a38d6d9c63d4052914ea7bd70cb2"),
  ("url", .str "ipfs://bafkreifnwj6zpu3ixa4siz2lndqybyc5wnnt3jkwyutci4e2tmbnj3xrdm")]),
  ("script", .str "fa24fb305126805cf2164c161d852a0e7330cf988f1fe558cf7d4a64")]),
  ("dRepActivity", .uint 20),
  ("dRepDeposit", .uint 500000000),
  ("dRepVotingThresholds", .obj [("committeeNoConfidence", .float (.fin false 5404319552844595 53)),
  ("committeeNormal", .float (.fin false 6034823500676465 53)),
  ("hardForkInitiation", .float (.fin false 5404319552844595 53)),
  ("motionNoConfidence", .float (.fin false 6034823500676465 53)),
  ("ppEconomicGroup", .float (.fin false 6034823500676465 53)),
  ("ppGovGroup", .float (.fin false 3 2)),
  ("ppNetworkGroup", .float (.fin false 6034823500676465 53)),
  ("ppTechnicalGroup", .float (.fin false 6034823500676465 53)),
  ("treasuryWithdrawal", .float (.fin false 6034823500676465 53)),
  ("updateToConstitution", .float (.fin false 3 2))]),
  ("govActionDeposit", .uint 100000000000),
  ("govActionLifetime", .uint 6),
  ("minFeeRefScriptCostPerByte", .uint 15),
  ("plutusV3CostModel", .arr [.uint 100788, .uint 420, .uint 1, .uint 1, .uint 1000, .uint 173, .uint 0, .uint 1, .uint 1000, .uint 59957, .uint 4, .uint 1, .uint 11183, .uint 32, .uint 201305, .uint 8356, .uint 4, .uint 16000, .uint 100, .uint 16000, .uint 100, .uint 16000, .uint 100, .uint 16000, .uint 100, .uint 16000, .uint 100, .uint 16000, .uint 100, .uint 100, .uint 100, .uint 16000, .uint 100, .uint 94375, .uint 32, .uint 132994, .uint 32, .uint 61462, .uint 4, .uint 72010, .uint 178, .uint 0, .uint 1, .uint 22151, .uint 32, .uint 91189, .uint 769, .uint 4, .uint 2, .uint 85848, .uint 123203, .uint 7305, .sint (-900), .uint 1716, .uint 549, .uint 57, .uint 85848, .uint 0, .uint 1, .uint 1, .uint 1000, .uint 42921, .uint 4, .uint 2, .uint 24548, .uint 29498, .uint 38, .uint 1, .uint 898148, .uint 27279, .uint 1, .uint 51775, .uint 558, .uint 1, .uint 39184, .uint 1000, .uint 60594, .uint 1, .uint 141895, .uint 32, .uint 83150, .uint 32, .uint 15299, .uint 32, .uint 76049, .uint 1, .uint 13169, .uint 4, .uint 22100, .uint 10, .uint 28999, .uint 74, .uint 1, .uint 28999, .uint 74, .uint 1, .uint 43285, .uint 552, .uint 1, .uint 44749, .uint 541, .uint 1, .uint 33852, .uint 32, .uint 68246, .uint 32, .uint 72362, .uint 32, .uint 7243, .uint 32, .uint 7391, .uint 32, .uint 11546, .uint 32, .uint 85848, .uint 123203, .uint 7305, .sint (-900), .uint 1716, .uint 549, .uint 57, .uint 85848, .uint 0, .uint 1, .uint 90434, .uint 519, .uint 0, .uint 1, .uint 74433, .uint 32, .uint 85848, .uint 123203, .uint 7305, .sint (-900), .uint 1716, .uint 549, .uint 57, .uint 85848, .uint 0, .uint 1, .uint 1, .uint 85848, .uint 123203, .uint 7305, .sint (-900), .uint 1716, .uint 549, .uint 57, .uint 85848, .uint 0, .uint 1, .uint 955506, .uint 213312, .uint 0, .uint 2, .uint 270652, .uint 22588, .uint 4, .uint 1457325, .uint 64566, .uint 4, .uint 20467, .uint 1, .uint 4, .uint 0, .uint 141992, .uint 32, .uint 100788, .uint 420, .uint 1, .uint 1, .uint 81663, .uint 32, .uint 59498, .uint 32, .uint 20142, .uint 32, .uint 24588, .uint 32, .uint 20744, .uint 32, .uint 25933, .uint 32, .uint 24623, .uint 32, .uint 43053543, .uint 10, .uint 53384111, .uint 14333, .uint 10, .uint 43574283, .uint 26308, .uint 10, .uint 16000, .uint 100, .uint 16000, .uint 100, .uint 962335, .uint 18, .uint 2780678, .uint 6, .uint 442008, .uint 1, .uint 52538055, .uint 3756, .uint 18, .uint 267929, .uint 18, .uint 76433006, .uint 8868, .uint 18, .uint 52948122, .uint 18, .uint 1995836, .uint 36, .uint 3227919, .uint 12, .uint 901022, .uint 1, .uint 166917843, .uint 4307, .uint 36, .uint 284546, .uint 36, .uint 158221314, .uint 26549, .uint 36, .uint 74698472, .uint 36, .uint 333849714, .uint 1, .uint 254006273, .uint 72, .uint 2174038, .uint 72, .uint 2261318, .uint 64571, .uint 4, .uint 207616, .uint 8310, .uint 4, .uint 1293828, .uint 28716, .uint 63, .uint 0, .uint 1, .uint 1006041, .uint 43623, .uint 251, .uint 0, .uint 1]),
  ("poolVotingThresholds", .obj [("committeeNoConfidence", .float (.fin false 2296835809958953 52)),
  ("committeeNormal", .float (.fin false 2296835809958953 52)),
  ("hardForkInitiation", .float (.fin false 2296835809958953 52)),
  ("motionNoConfidence", .float (.fin false 2296835809958953 52)),
  ("ppSecurityGroup", .float (.fin false 2296835809958953 52))])]

/-- `protocolConsts` of byron-genesis.json -/
def byronConsts : J := .obj [("k", .uint 2160),
  ("protocolMagic", .uint 764824073),
  ("vssMaxTTL", .uint 6),
  ("vssMinTTL", .uint 2)]

example : (Byron.ProtocolConsts.fromJson byronConsts >>= fun p => .ok p.protocolMagic) = .ok 764824073 := by decide +kernel
example : (Shelley.Params.fromJson shelleyFile >>= fun p => .ok (p.protocolParameters.protocolVersion.major, p.epochLength)) = .ok (2, 432000) := by
  decide +kernel
example : (Alonzo.Params.fromJson alonzoFile >>= fun p => .ok p.lovelacePerUtxoWord) = .ok 34482 := by decide +kernel
example : (Conway.Params.fromJson conwayFile >>= fun p => .ok p.committeeMinSize) = .ok 7 := by decide +kernel

/-- The slot length of the main network is one second; the library reports the security parameter. -/
example : (Shelley.Params.fromJson shelleyFile >>= fun p => .ok p.slotLength) = .ok 2160 := by decide +kernel

end Cardano.Vectors
