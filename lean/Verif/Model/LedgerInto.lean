import Verif.Model.Ledger

/-! # Deserializing into an existing object

`Model/Ledger` gives the value a successful `deserialize` produces.  Here the same member functions are
modelled as what they are, sequences of assignments to `*this`, so that the object a *throwing*
`deserialize` leaves behind, and the parts of an old object that survive a successful one, are visible.
`src/shelley/ledger.cpp`, `include/cardano/serialization.hpp`.  That the two models agree is proved in
`Props/LedgerInto`. -/

namespace Cardano.Ledger

open Cardano Cardano.Cbor

/-- A member function: from the object before the call to the object after it and the outcome.  After
an exception the object is whatever the assignments so far have made of it. -/
def Member (σ α : Type) : Type := σ → σ × Out α

namespace Member

/-- Sequencing: later statements run only if the earlier ones returned. -/
def bind {σ α β} (x : Member σ α) (f : α → Member σ β) : Member σ β := fun s =>
  match x s with
  | (s', .ok a) => f a s'
  | (s', .throw e) => (s', .throw e)
  | (s', .ub) => (s', .ub)

instance {σ} : Monad (Member σ) where
  pure a := fun s => (s, .ok a)
  bind := bind

/-- An expression that does not touch the object. -/
def eval {σ α} (x : Out α) : Member σ α := fun s => (s, x)

/-- An assignment to members. -/
def assign {σ} (f : σ → σ) : Member σ Unit := fun s => (f s, .ok ())

/-- A call of a member function on a member object. -/
def onField {σ τ α} (get : σ → τ) (put : τ → σ → σ) (f : Member τ α) : Member σ α := fun s =>
  let r := f (get s)
  (put r.1 s, r.2)

/-- A range-based loop. -/
def forEach {σ α} : List α → (α → Member σ Unit) → Member σ Unit
  | [], _ => pure ()
  | a :: l, f => do
    f a
    forEach l f

end Member

open Member

/-- `ArraySerializable::deserialize` (serialization.hpp:48-61): the object is not touched before the
bytes have been parsed. -/
def intoArray {σ} (f : List Item → Member σ Unit) (b : Bytes) : Member σ Unit :=
  match parse b with
  | none => eval (.throw .runtimeError)
  | some i => match asArray i with
    | none => eval (.throw .runtimeError)
    | some l => f l

/-- `MapSerializable::deserialize` (serialization.hpp:84-97). -/
def intoMap {σ} (f : List Item → Member σ Unit) (b : Bytes) : Member σ Unit :=
  match parse b with
  | none => eval (.throw .runtimeError)
  | some i => match asMap i with
    | none => eval (.throw .runtimeError)
    | some l => f l

/-- `TagSerializable::deserialize` (serialization.hpp:124-136). -/
def intoTag {σ} (f : Nat → Item → Member σ Unit) (b : Bytes) : Member σ Unit :=
  match parse b with
  | none => eval (.throw .runtimeError)
  | some (.tag n i) => f n i
  | some _ => eval (.throw .runtimeError)

/-! ## Types with several assignments -/

/-- The assignments of `Rational::deserializer` (serialization.hpp:188-194): numerator and denominator
are stored before the denominator is checked. -/
def Rational.store (num den : Nat) : Member Rational Unit := do
  assign fun r => { r with num := num }
  assign fun r => { r with den := den }
  eval (if den = 0 then .throw .runtimeError else .ok ())

/-- `Rational::deserializer` (serialization.hpp:158-195). -/
def Rational.into (n : Nat) (i : Item) : Member Rational Unit :=
  if n ≠ 30 then eval (.throw .runtimeError)
  else match asArray i with
    | none => eval (.throw .runtimeError)
    | some [a, b] =>
      match asUint a, asUint b with
      | some num, some den => Rational.store num den
      | _, _ => eval (.throw .runtimeError)
    | some _ => eval (.throw .runtimeError)

/-- The assignments of `PoolMetadata::deserializer` (src/shelley/ledger.cpp:67-76): the URL is stored before the
size of the hash is checked. -/
def PoolMetadata.store (u h : Bytes) : Member PoolMetadata Unit := do
  assign fun m => { m with url := u }
  let h ← eval (reqLen .invalidArgument 32 h)
  assign fun m => { m with hash := h }

/-- `PoolMetadata::deserializer` (src/shelley/ledger.cpp:45-77). -/
def PoolMetadata.into (data : List Item) : Member PoolMetadata Unit :=
  match data with
  | [a, b] =>
    match asTstr a, asBstr b with
    | some u, some h => PoolMetadata.store u h
    | _, _ => eval (.throw .runtimeError)
  | _ => eval (.throw .runtimeError)

/-- The assignments of `StakeCredential::deserializer` (src/shelley/ledger.cpp:265-285): the type is stored before
the size of the hash is checked. -/
def StakeCredential.store (t : Nat) (c : Bytes) : Member StakeCredential Unit := do
  let ty ← eval (credTypeOf t)
  assign fun s => { s with type := ty }
  let c ← eval (reqLen .invalidArgument 28 c)
  assign fun s => { s with cred := c }

/-- `StakeCredential::deserializer` (src/shelley/ledger.cpp:248-286). -/
def StakeCredential.into (data : List Item) : Member StakeCredential Unit :=
  match data with
  | [a, b] =>
    match asUint a, asBstr b with
    | some t, some c => StakeCredential.store t c
    | _, _ => eval (.throw .runtimeError)
  | _ => eval (.throw .runtimeError)

/-- The loop of src/shelley/ledger.cpp:331-338: each entry is appended as it is read. -/
def mirLoopInto : List Item → Member MIR Unit
  | k :: v :: rest => do
    let arr ← eval (deref (asArray k))
    let c ← eval (StakeCredential.deser arr)
    let n ← eval (deref (asUint v))
    assign fun m => { m with creds := m.creds ++ [(c, n)] }
    mirLoopInto rest
  | _ => pure ()

/-- The assignments of `MoveInstantaneousReward::deserializer` (src/shelley/ledger.cpp:316-338). -/
def MIR.store (s : Nat) (kvs : List Item) : Member MIR Unit := do
  let src ← eval (sourceOf s)
  assign fun m => { m with source := src }
  mirLoopInto kvs

/-- `MoveInstantaneousReward::deserializer` (src/shelley/ledger.cpp:300-339). -/
def MIR.into (data : List Item) : Member MIR Unit :=
  match data with
  | [a, b] =>
    match asUint a, asMap b with
    | some s, some kvs => MIR.store s kvs
    | _, _ => eval (.throw .runtimeError)
  | _ => eval (.throw .runtimeError)

/-- The assignments of `TransactionOutput::deserializer` (src/shelley/ledger.cpp:673-674), after all checks. -/
def TxOut.store (a : Bytes) (n : Nat) : Member TxOut Unit := do
  assign fun o => { o with address := a }
  assign fun o => { o with amount := n }

/-- `TransactionOutput::deserializer` (src/shelley/ledger.cpp:651-675). -/
def TxOut.into (data : List Item) : Member TxOut Unit :=
  match data with
  | [a, b] =>
    match asBstr a, asUint b with
    | some addr, some n => TxOut.store addr n
    | _, _ => eval (.throw .runtimeError)
  | _ => eval (.throw .runtimeError)

/-- The assignments of `TransactionInput::deserializer` (src/shelley/ledger.cpp:707-713): the size is checked first. -/
def TxIn.store (t : Bytes) (n : Nat) : Member TxIn Unit := do
  let t ← eval (reqLen .invalidArgument 32 t)
  assign fun i => { i with txId := t }
  assign fun i => { i with index := n }

/-- `TransactionInput::deserializer` (src/shelley/ledger.cpp:685-714). -/
def TxIn.into (data : List Item) : Member TxIn Unit :=
  match data with
  | [a, b] =>
    match asBstr a, asUint b with
    | some t, some n => TxIn.store t n
    | _, _ => eval (.throw .invalidArgument)
  | _ => eval (.throw .invalidArgument)

/-! ## Variants: one assignment at the end -/

/-- `Relay::deserializer` (src/shelley/ledger.cpp:136-239): a local object is filled and moved into the variant; an
unknown type number assigns nothing.  (`Relay.deser .empty` is the local object.) -/
def Relay.into (data : List Item) : Member Relay Unit := do
  let r ← eval (Relay.deser .empty data)
  if 3 ≤ (data.head?.bind asUint).getD 0 then pure () else assign fun _ => r

/-- `Certificate::deserializer` (src/shelley/ledger.cpp:446-642): likewise. -/
def Certificate.into (data : List Item) : Member Certificate Unit := do
  let c ← eval (Certificate.deser .empty data)
  if 7 ≤ (data.head?.bind asUint).getD 0 then pure () else assign fun _ => c

/-- `MultisigScript::deserializer` (src/shelley/ledger.cpp:771-873): likewise. -/
def Script.into (data : List Item) : Member Script Unit := do
  let s ← eval (scriptData data)
  if 4 ≤ (data.head?.bind asUint).getD 0 then pure () else assign fun _ => s

/-! ## Transactions -/

/-- The inputs (src/shelley/ledger.cpp:942-953): cleared, then inserted one by one. -/
def TxBody.intoInputs (m : List Item) : Member TxBody Unit := do
  assign fun t => { t with inputs := [] }
  forEach (arrayAt 0 m) fun i => do
    let x ← eval (inputOf i)
    assign fun t => { t with inputs := setInsert TxIn.lt x t.inputs }

/-- The outputs (src/shelley/ledger.cpp:955-966). -/
def TxBody.intoOutputs (m : List Item) : Member TxBody Unit := do
  assign fun t => { t with outputs := [] }
  forEach (arrayAt 1 m) fun i => do
    let x ← eval (outputOf i)
    assign fun t => { t with outputs := t.outputs ++ [x] }

/-- The fee and the time-to-live (src/shelley/ledger.cpp:968-980): neither can throw. -/
def TxBody.intoNumbers (m : List Item) : Member TxBody Unit := do
  assign fun t => { t with fee := uintAt 2 m }
  assign fun t => { t with ttl := uintAt 3 m }

/-- The certificates (src/shelley/ledger.cpp:982-993). -/
def TxBody.intoCertificates (m : List Item) : Member TxBody Unit := do
  assign fun t => { t with certificates := [] }
  forEach (arrayAt 4 m) fun i => do
    let x ← eval (certOf i)
    assign fun t => { t with certificates := t.certificates ++ [x] }

/-- The loop over the withdrawals (src/shelley/ledger.cpp:1000-1006). -/
def withdrawalLoopInto : List Item → Member TxBody Unit
  | k :: v :: rest => do
    let a ← eval (deref (asBstr k))
    let n ← eval (deref (asUint v))
    assign fun t => { t with withdrawals := mapAssign bytesLt a n t.withdrawals }
    withdrawalLoopInto rest
  | _ => pure ()

/-- The withdrawals and the update (src/shelley/ledger.cpp:995-1013). -/
def TxBody.intoWithdrawals (m : List Item) : Member TxBody Unit := do
  assign fun t => { t with withdrawals := [] }
  withdrawalLoopInto (((lookup 5 m).bind asMap).getD [])
  assign fun t => { t with update := false }

/-- The metadata hash (src/shelley/ledger.cpp:1015-1027). -/
def TxBody.intoHash (m : List Item) : Member TxBody Unit := do
  assign fun t => { t with metadataHash := none }
  let h ← eval (hashAt m)
  assign fun t => { t with metadataHash := h }

/-- `TransactionBody::deserializer` (src/shelley/ledger.cpp:933-1029). -/
def TxBody.into (m : List Item) : Member TxBody Unit := do
  TxBody.intoInputs m
  TxBody.intoOutputs m
  TxBody.intoNumbers m
  TxBody.intoCertificates m
  TxBody.intoWithdrawals m
  TxBody.intoHash m

/-- `TransactionWitnessSet::deserializer` (src/shelley/ledger.cpp:1064-1105). -/
def WitnessSet.into (m : List Item) : Member WitnessSet Unit := do
  assign fun w => { w with vkeys := [] }
  forEach ((arrayAt 0 m).filterMap asArray) fun l => do
    let x ← eval (vkeyOf l)
    assign fun w => { w with vkeys := w.vkeys ++ [x] }
  assign fun w => { w with multisig := [] }
  assign fun w => { w with bootstrap := [] }

/-- Element 0 of a transaction (src/shelley/ledger.cpp:1131-1135). -/
def Tx.intoBody (i : Option Item) : Member Tx Unit :=
  match i.bind asMap with
  | none => pure ()
  | some m => onField Tx.body (fun b t => { t with body := b }) (TxBody.into m)

/-- Element 1 of a transaction (src/shelley/ledger.cpp:1137-1141). -/
def Tx.intoWits (i : Option Item) : Member Tx Unit :=
  match i.bind asMap with
  | none => pure ()
  | some m => onField Tx.wits (fun w t => { t with wits := w }) (WitnessSet.into m)

/-- `Transaction::deserializer` (src/shelley/ledger.cpp:1123-1145). -/
def Tx.into (data : List Item) : Member Tx Unit := do
  Tx.intoBody data[0]?
  Tx.intoWits data[1]?

end Cardano.Ledger
