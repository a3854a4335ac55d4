import Verif.Model.BabbageBuilder
import Verif.Spec.TxHistory

/-! # What a history of Babbage builder calls asks for

Read off the list of calls alone, without running the builder. -/

namespace Cardano.Spec.BabbageBuilder

open Cardano.Ledger Cardano.BabbageBuilder

/-- The inputs passed to `addInput` with an id of at least 32 bytes; an id is 32 bytes. -/
def inputsOf : List Op → List TxIn
  | [] => []
  | .addInput id i :: ops => if id.length < 32 then inputsOf ops else ⟨id.take 32, i⟩ :: inputsOf ops
  | _ :: ops => inputsOf ops

/-- The withdrawals asked for, in order. -/
def withdrawalsOf : List Op → List (Bytes × Nat)
  | [] => []
  | .addWithdrawal a n :: ops => (a.toBytes, n) :: withdrawalsOf ops
  | _ :: ops => withdrawalsOf ops

/-- A payment without datum or script, in the old array form or the new map form. -/
def payment (addr : Bytes) (amount : Nat) : Bool → Babbage.TxOut
  | true => .pre ⟨addr, amount, none⟩
  | false => .post ⟨addr, amount, none⟩

/-- The payments asked for, in order. -/
def outputsOf : List Op → List Babbage.TxOut
  | [] => []
  | .addOutputBase a n p :: ops => payment a.toBytes n p :: outputsOf ops
  | .addOutputEnterprise a n p :: ops => payment a.toBytes n p :: outputsOf ops
  | _ :: ops => outputsOf ops

/-- The last time to live asked for. -/
def ttlOf : List Op → Option Nat
  | [] => none
  | .setTtl t :: ops => some ((ttlOf ops).getD t)
  | _ :: ops => ttlOf ops

/-- The last fee asked for. -/
def feeOf : List Op → Option Nat
  | [] => none
  | .setFee f :: ops => some ((feeOf ops).getD f)
  | _ :: ops => feeOf ops

/-- The last value a history gives to a setting, with the value it starts with. -/
def lastSet (set? : Op → Option Nat) (start : Nat) (ops : List Op) : Nat :=
  ops.foldl (fun v op => (set? op).getD v) start

/-- The argument of `setMinFeeA`, of `setMinFeeB`. -/
def minFeeA? : Op → Option Nat
  | .setMinFeeA x => some x
  | _ => none
def minFeeB? : Op → Option Nat
  | .setMinFeeB x => some x
  | _ => none

/-- The history does not ask the builder to compute a fee. -/
def NoComputedFee (ops : List Op) : Prop := ∀ n, Op.calculateFee n ∉ ops

/-- Is this a call that changes the body or is asked to remove the witnesses?  (`addInput` only
if it succeeds; `balance` always throws.) -/
def changesBody : Op → Bool
  | .addInput id _ => decide (32 ≤ id.length)
  | .addOutputBase .. | .addOutputEnterprise .. | .addWithdrawal .. | .setFee .. | .setTtl ..
  | .calculateFee .. | .clearWitnessSet => true
  | _ => false

/-- The arguments have the C++ types: 64-bit integers, 28-byte hashes in addresses, key sizes. -/
def ArgsWF : Op → Prop
  | .addInput _ i => i < 2 ^ 64
  | .addOutputBase a n _ => a.pmt.length = 28 ∧ a.stk.length = 28 ∧ n < 2 ^ 64
  | .addOutputEnterprise a n _ => a.key.length = 28 ∧ n < 2 ^ 64
  | .addWithdrawal a n => a.key.length = 28 ∧ n < 2 ^ 64
  | .setFee f => f < 2 ^ 64
  | .setTtl t => t < 2 ^ 64
  | .sign k => Cardano.Spec.TxBuilder.KeyWF k
  | _ => True

/-- `t` with the given key witnesses. -/
def withWitnesses (t : Babbage.Tx) (ws : List VkeyWitness) : Babbage.Tx := { t with wits := { t.wits with vkeys := ws } }

/-- `t` with the given fee. -/
def withFee (t : Babbage.Tx) (f : Nat) : Babbage.Tx := { t with body := { t.body with fee := f } }

/-- Size in bytes of a serialized transaction. -/
def size (t : Babbage.Tx) : Nat := t.serialize.length

end Cardano.Spec.BabbageBuilder
