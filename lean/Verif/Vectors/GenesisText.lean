import Verif.Model.JsonText
import Verif.Vectors.Genesis

/-! # Test vectors: the text of a genesis file

The protocol parameters of test/data/genesis/shelley-genesis.json, as bytes.  A test of the model of the parser, as in
`Verif.Vectors.Keys`. -/

namespace Cardano.Vectors

open Cardano Cardano.Util Cardano.Genesis Cardano.Genesis.JsonText

/-- "protocolParams" in shelley-genesis.json. -/
def paramsText : Bytes := (["{",
  "    \"protocolVersion\": {",
  "      \"minor\": 0,",
  "      \"major\": 2",
  "    },",
  "    \"decentralisationParam\": 1,",
  "    \"eMax\": 18,",
  "    \"extraEntropy\": {",
  "      \"tag\": \"NeutralNonce\"",
  "    },",
  "    \"maxTxSize\": 16384,",
  "    \"maxBlockBodySize\": 65536,",
  "    \"maxBlockHeaderSize\": 1100,",
  "    \"minFeeA\": 44,",
  "    \"minFeeB\": 155381,",
  "    \"minUTxOValue\": 1000000,",
  "    \"poolDeposit\": 500000000,",
  "    \"minPoolCost\": 340000000,",
  "    \"keyDeposit\": 2000000,",
  "    \"nOpt\": 150,",
  "    \"rho\": 0.003,",
  "    \"tau\": 0.20,",
  "    \"a0\": 0.3",
  "  }"].map fun l => ascii l ++ [10]).flatten

/-- The doubles nearest to the decimal fractions in it. -/
def paramsDoubles (t : Bytes) : Option Dbl :=
  [(ascii "0.003", .fin false 3458764513820541 60), (ascii "0.20", .fin false 3602879701896397 54),
   (ascii "0.3", .fin false 5404319552844595 54)].lookup t

example : (readFile paramsDoubles Shelley.ProtocolParameters.fromJson (some paramsText) >>= fun p => .ok (p.maxTxSize, p.minPoolCost, p.tau)) =
    Out.ok (16384, 340000000, .fin false 3602879701896397 54) := by decide +kernel

example : readFile paramsDoubles Shelley.ProtocolParameters.fromJson (some paramsText) =
    (shelleyFile.at "protocolParams" >>= Shelley.ProtocolParameters.fromJson) := by decide +kernel

end Cardano.Vectors
