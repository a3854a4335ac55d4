import Verif.Model.Ledger

/-! # What a user of the transaction builder relies on

Small, independent vocabulary for the theorems on the transaction builder. -/

namespace Cardano.Spec.TxBuilder

open Cardano.Ledger

/-- Bytes of a CBOR unsigned integer (RFC 8949, 3). -/
def uintSize (n : Nat) : Nat :=
  if n < 24 then 1 else if n < 2 ^ 8 then 2 else if n < 2 ^ 16 then 3 else if n < 2 ^ 32 then 5 else 9

/-- The ledger's minimum fee for a transaction of `size` bytes (Shelley ledger spec, 9.2). -/
def minFee (a b size : Nat) : Nat := a * size + b

/-- Size in bytes of a serialized transaction. -/
def TxSize (t : Tx) (n : Nat) : Prop := ∃ s, t.serialize = .ok s ∧ s.length = n

/-- A key witness with the sizes of Ed25519 keys and signatures. -/
def WitnessSized (w : VkeyWitness) : Prop := w.vkey.length = 32 ∧ w.sig.length = 64

/-- `t` with the given key witnesses. -/
def withWitnesses (t : Tx) (ws : List VkeyWitness) : Tx := { t with wits := { t.wits with vkeys := ws } }

/-- `t` with the given fee. -/
def withFee (t : Tx) (f : Nat) : Tx := { t with body := { t.body with fee := f } }

/-- Value of the outputs. -/
def outputSum (os : List TxOut) : Nat := (os.map (·.amount)).sum

/-- Value of the inputs, given the ledger's unspent outputs. -/
def inputSum (utxo : TxIn → Nat) (is : List TxIn) : Nat := (is.map utxo).sum

/-- Value of the withdrawals. -/
def withdrawalSum (ws : List (Bytes × Nat)) : Nat := (ws.map (·.2)).sum

/-- Number of stake key deregistrations, each of which returns a key deposit. -/
def deregistrations (cs : List Certificate) : Nat :=
  cs.countP fun c => match c with | .stakeDereg _ => true | _ => false

/-- Value consumed by a transaction (Shelley ledger spec, `consumed`): inputs, withdrawals and
key deposits given back. -/
def consumed (utxo : TxIn → Nat) (keyDeposit : Nat) (b : TxBody) : Nat :=
  inputSum utxo b.inputs + withdrawalSum b.withdrawals + keyDeposit * deregistrations b.certificates

/-- Value produced by a transaction (Shelley ledger spec, `produced`): outputs, fee and
deposits. -/
def produced (deposits : Nat) (b : TxBody) : Nat := outputSum b.outputs + b.fee + deposits

end Cardano.Spec.TxBuilder
