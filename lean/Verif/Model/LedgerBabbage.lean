import Verif.Model.Ledger

/-! # Model of the Alonzo/Babbage transaction types

`src/ledger.cpp`, `include/cardano/ledger.hpp:1409-1925`.  Only serialization exists: every
deserializer of these types throws `std::runtime_error("Not yet implemented")`. -/

namespace Cardano.Ledger.Babbage

open Cardano.Cbor Cardano.Ledger

/-- `alonzo::TransactionOutput` = `PreBabbageTransactionOutput` (ledger.hpp:1424-1444). -/
structure PreOut where
  address : Bytes
  amount : Nat
  datumHash : Option Bytes
  deriving DecidableEq, Repr

/-- `babbage::PostAlonzoTransactionOutput` (ledger.hpp:1746-1765); the script reference is its
CBOR. -/
structure PostOut where
  address : Bytes
  amount : Nat
  scriptRef : Option Bytes
  deriving DecidableEq, Repr

/-- `babbage::TransactionOutput` (ledger.hpp:1767-1768). -/
inductive TxOut where
  | pre (o : PreOut)
  | post (o : PostOut)
  deriving DecidableEq, Repr

/-- The datum hash element (src/ledger.cpp:36-39). -/
def datumItem : Option Bytes → List Item
  | none => []
  | some h => [.bstr h]

/-- `alonzo::TransactionOutput::serializer` (src/ledger.cpp:31-41). -/
def PreOut.ser (o : PreOut) : Item := .array ([.bstr o.address, .uint o.amount] ++ datumItem o.datumHash)

/-- `babbage::PostAlonzoTransactionOutput::serializer` (src/ledger.cpp:48-57): datum option and
script reference are not written (`TODO`). -/
def PostOut.ser (o : PostOut) : Item := .map [.uint 0, .bstr o.address, .uint 1, .uint o.amount]

/-- The two `get_if`s (src/ledger.cpp:72-83). -/
def TxOut.ser : TxOut → Item
  | .pre o => o.ser
  | .post o => o.ser

/-- `babbage::ScriptRef::serializer` (src/ledger.cpp:43-46). -/
def scriptRefItem (cbor : Bytes) : Item := .tag 24 (.bstr cbor)

/-- `babbage::TransactionBody` (ledger.hpp:1814-1846).  A certificate is any of the Shelley
kinds. -/
structure TxBody where
  inputs : List TxIn := []
  outputs : List TxOut := []
  fee : Nat := 0
  ttl : Option Nat := none
  certificates : List Certificate := []
  withdrawals : List (Bytes × Nat) := []
  deriving DecidableEq, Repr

/-- Key 3 (src/ledger.cpp:88-91). -/
def ttlEntry : Option Nat → List Item
  | none => []
  | some t => [.uint 3, .uint t]

/-- `babbage::TransactionBody::serializer` (src/ledger.cpp:59-122): certificates are not written
(commented out, 93-101). -/
def TxBody.ser (b : TxBody) : List Item :=
  [.uint 0, .array (b.inputs.map fun i => .array i.ser), .uint 1, .array (b.outputs.map TxOut.ser),
   .uint 2, .uint b.fee] ++ ttlEntry b.ttl ++ withdrawalsEntry b.withdrawals

/-- `babbage::TransactionWitnessSet` (ledger.hpp:1867-1885): only key witnesses. -/
structure WitnessSet where
  vkeys : List VkeyWitness := []
  deriving DecidableEq, Repr

/-- `babbage::TransactionWitnessSet::serializer` (src/ledger.cpp:124-140). -/
def WitnessSet.ser (w : WitnessSet) : List Item := vkeysEntry w.vkeys

/-- `babbage::Transaction` (ledger.hpp:1908-1923). -/
structure Tx where
  body : TxBody := {}
  wits : WitnessSet := {}
  flag : Bool := true
  deriving DecidableEq, Repr

/-- `babbage::Transaction::serializer` (src/ledger.cpp:147-156). -/
def Tx.ser (t : Tx) : List Item := [.map t.body.ser, .map t.wits.ser, .bool t.flag, .null]

/-- `babbage::TransactionBody::serialize` (serialization.hpp:80-83). -/
def TxBody.serialize (b : TxBody) : Bytes := encMap b.ser

/-- `babbage::Transaction::serialize` (serialization.hpp:43-46). -/
def Tx.serialize (t : Tx) : Bytes := encArray t.ser

/-- `deserializer` of every type of this file (ledger.hpp:1440-1443, 1733-1736, 1761-1764,
1838-1841, 1880-1883, 1918-1920). -/
def notImplemented {α} (_ : List Item) : Out α := .throw .runtimeError

/-- `babbage::Transaction::deserialize` (serialization.hpp:50-61). -/
def Tx.deserialize (b : Bytes) : Out Tx := deserializeArray notImplemented b

end Cardano.Ledger.Babbage
