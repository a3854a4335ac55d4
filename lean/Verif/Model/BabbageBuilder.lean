import Verif.Model.TxBuilder
import Verif.Model.LedgerBabbage

/-! # Model of the Babbage transaction builder

`src/babbage/transaction.cpp`, `include/cardano/transaction.hpp:385-588`.

As in `Model/TxBuilder.lean`, a call is modelled by the builder it leaves behind and its
outcome.  `addMint` and `fromCBOR` are declared (transaction.hpp:420-421, 462-466) but defined
nowhere, so a program that calls them does not link: they are not modelled. -/

namespace Cardano.BabbageBuilder

open Cardano Cardano.Ledger Cardano.Address
open Cardano.TxBuilder (Env SKey replaceWitness feeFor)

/-- `babbage::TransactionBuilder` (transaction.hpp:389-407); `era_` is constant. -/
structure Builder where
  tx : Babbage.Tx := {}
  changeAddr : Bytes := []
  minFeeA : Nat := 44
  minFeeB : Nat := 155381
  deriving DecidableEq, Repr

/-- The constructor from a transaction (transaction.hpp:415). -/
def ofTx (t : Babbage.Tx) : Builder := { tx := t }

/-- `clearWitnessSet` (src/babbage/transaction.cpp:268-274). -/
def clearWitnessSet (b : Builder) : Builder :=
  { b with tx := { b.tx with wits := { b.tx.wits with vkeys := [] } } }

/-- Replace the body. -/
def setBody (b : Builder) (f : Babbage.TxBody → Babbage.TxBody) : Builder :=
  { b with tx := { b.tx with body := f b.tx.body } }

/-- `addInput` (src/babbage/transaction.cpp:52-66). -/
def addInput (b : Builder) (id : Bytes) (index : Nat) : Builder × Out Unit :=
  if id.length < 32 then (b, .throw .invalidArgument)
  else (setBody (clearWitnessSet b) fun t =>
    { t with inputs := setInsert TxIn.lt ⟨id.take 32, index⟩ t.inputs }, .ok ())

/-- The output of `addOutput` (src/babbage/transaction.cpp:75-88). -/
def output (addr : Bytes) (amount : Nat) (prebabbage : Bool) : Babbage.TxOut :=
  if prebabbage then .pre ⟨addr, amount, none⟩ else .post ⟨addr, amount, none⟩

/-- `addOutput`, both overloads (src/babbage/transaction.cpp:68-114), the address as bytes. -/
def addOutput (b : Builder) (addr : Bytes) (amount : Nat) (prebabbage : Bool) : Builder :=
  setBody (clearWitnessSet b) fun t => { t with outputs := t.outputs ++ [output addr amount prebabbage] }

/-- `addWithdrawal` (src/babbage/transaction.cpp:116-124). -/
def addWithdrawal (b : Builder) (addr : Bytes) (amount : Nat) : Builder :=
  setBody (clearWitnessSet b) fun t => { t with withdrawals := mapAssign bytesLt addr amount t.withdrawals }

/-- `setTtl` (src/babbage/transaction.cpp:126-132). -/
def setTtl (b : Builder) (ttl : Nat) : Builder :=
  setBody (clearWitnessSet b) fun t => { t with ttl := some ttl }

/-- `setFee` (src/babbage/transaction.cpp:134-140). -/
def setFee (b : Builder) (fee : Nat) : Builder :=
  setBody (clearWitnessSet b) fun t => { t with fee := fee }

/-! ## Fees -/

/-- The transaction with `n` dummy key witnesses in place of its own
(src/babbage/transaction.cpp:148-156).  The random bytes are replaced by zeros: only their number
matters (`size_wits` in `Props/BabbageFee.lean`). -/
def dummyTx (t : Babbage.Tx) (n : Nat) : Babbage.Tx :=
  { t with wits := { t.wits with vkeys := List.replicate n ⟨List.replicate 32 0, List.replicate 64 0⟩ } }

/-- `this->serialize().size()` with the given fee in the body. -/
def sizeWithFee (t : Babbage.Tx) (fee : Nat) : Nat :=
  (Babbage.Tx.serialize { t with body := { t.body with fee := fee } }).length

/-- The loop of src/babbage/transaction.cpp:159-163: `fee` is the fee in the body, `cf` the
calculated one; the fee in the body and the calculated one at the end.  `none`: the bound on
the number of rounds was reached. -/
def feeLoop (t : Babbage.Tx) (a b : Nat) : Nat → Nat → Nat → Option (Nat × Nat)
  | 0, _, _ => none
  | k + 1, fee, cf =>
    if cf = fee then some (fee, cf)
    else feeLoop t a b k cf (feeFor a b (sizeWithFee t cf))

/-- `calculateFee` (src/babbage/transaction.cpp:142-167): the fee is computed in the builder's own
transaction. -/
def calculateFee (k : Nat) (b : Builder) (n : Nat) : Option (Builder × Nat) :=
  match feeLoop (dummyTx b.tx n) b.minFeeA b.minFeeB k b.tx.body.fee
      (feeFor b.minFeeA b.minFeeB (sizeWithFee (dummyTx b.tx n) b.tx.body.fee)) with
  | none => none
  | some (fee, cf) => some (setBody (clearWitnessSet b) fun t => { t with fee := fee }, cf)

/-- `balance` (src/babbage/transaction.cpp:169-183). -/
def balance (b : Builder) (_n : Nat) : Builder × Out Unit := (b, .throw .runtimeError)

/-! ## Signing -/

/-- `getID` (src/babbage/transaction.cpp:185-193). -/
def getID (E : Env) (b : Builder) : Bytes := E.S.hash b.tx.body.serialize

/-- `makeWitness` (src/babbage/transaction.cpp:195-206). -/
def makeWitness (E : Env) (b : Builder) (k : SKey) : Out Bytes := k.sign E (getID E b)

/-- `makeWitness` and the public key (src/babbage/transaction.cpp:212-215, 242-245). -/
def witnessFor (E : Env) (b : Builder) (k : SKey) : Out (Bytes × Bytes) := do
  let sig ← makeWitness E b k
  let key ← k.pub E
  .ok (key, sig)

/-- `sign`, both overloads (src/babbage/transaction.cpp:208-266). -/
def sign (E : Env) (b : Builder) (k : SKey) : Builder × Out Unit :=
  match witnessFor E b k with
  | .ok (key, sig) =>
    ({ b with tx := { b.tx with wits := { b.tx.wits with vkeys := replaceWitness b.tx.wits.vkeys key sig } } }, .ok ())
  | .throw e => (b, .throw e)
  | .ub => (b, .ub)

/-- `serialize` (src/babbage/transaction.cpp:276-279). -/
def serialize (b : Builder) : Bytes := b.tx.serialize

/-! ## Histories -/

/-- Every public mutating call of the builder (transaction.hpp:427-575). -/
inductive Op where
  | addInput (id : Bytes) (index : Nat)
  | addOutputBase (a : Base) (amount : Nat) (prebabbage : Bool)
  | addOutputEnterprise (a : Single) (amount : Nat) (prebabbage : Bool)
  | addWithdrawal (a : Single) (amount : Nat)
  | setFee (fee : Nat)
  | setTtl (ttl : Nat)
  | setChangeBase (a : Base)
  | setChangeEnterprise (a : Single)
  | balance (n : Nat)
  | calculateFee (n : Nat)
  | sign (k : SKey)
  | clearWitnessSet
  | setMinFeeA (x : Nat)
  | setMinFeeB (x : Nat)

/-- One call; `calculateFee`'s result is not kept. -/
def step (E : Env) (k : Nat) (b : Builder) : Op → Option (Builder × Out Unit)
  | .addInput id index => some (addInput b id index)
  | .addOutputBase a amount pre => some (addOutput b a.toBytes amount pre, .ok ())
  | .addOutputEnterprise a amount pre => some (addOutput b a.toBytes amount pre, .ok ())
  | .addWithdrawal a amount => some (addWithdrawal b a.toBytes amount, .ok ())
  | .setFee fee => some (setFee b fee, .ok ())
  | .setTtl ttl => some (setTtl b ttl, .ok ())
  | .setChangeBase a => some ({ b with changeAddr := a.toBytes }, .ok ())
  | .setChangeEnterprise a => some ({ b with changeAddr := a.toBytes }, .ok ())
  | .balance n => some (balance b n)
  | .calculateFee n => (calculateFee k b n).map fun r => (r.1, .ok ())
  | .sign key => some (sign E b key)
  | .clearWitnessSet => some (clearWitnessSet b, .ok ())
  | .setMinFeeA x => some ({ b with minFeeA := x }, .ok ())
  | .setMinFeeB x => some ({ b with minFeeB := x }, .ok ())

/-- A history of calls on one builder.  The caller may catch exceptions and go on; it stops at
undefined behaviour or an endless loop (`none`). -/
def run (E : Env) (k : Nat) (b : Builder) : List Op → Option Builder
  | [] => some b
  | op :: ops =>
    match step E k b op with
    | none => none
    | some (_, .ub) => none
    | some (b', _) => run E k b' ops

end Cardano.BabbageBuilder
