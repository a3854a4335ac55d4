import Verif.Model.TxBuilder

/-! # What a history of builder calls asks for

Read off the list of calls alone, without running the builder. -/

namespace Cardano.Spec.TxBuilder

open Cardano.Ledger Cardano.TxBuilder

/-- The unspent outputs passed to `addInput` (with a full-length id). -/
def inputsOf : List Op → List UTxO
  | [] => []
  | .addInput u :: ops => if u.id.length < 32 then inputsOf ops else u :: inputsOf ops
  | _ :: ops => inputsOf ops

/-- The ledger input that spends an unspent output: 32-byte transaction id and index. -/
def spends (u : UTxO) : TxIn := ⟨u.id.take 32, u.index⟩

/-- The withdrawals asked for, in order. -/
def withdrawalsOf : List Op → List (Bytes × Nat)
  | [] => []
  | .addWithdrawal a n :: ops => (a.toBytes, n) :: withdrawalsOf ops
  | _ :: ops => withdrawalsOf ops

/-- The last entry for an address. -/
def lastFor (a : Bytes) : List (Bytes × Nat) → Option Nat
  | [] => none
  | (a', n) :: l => match lastFor a l with
    | some m => some m
    | none => if a' = a then some n else none

/-- The payments asked for, in order. -/
def outputsOf : List Op → List TxOut
  | [] => []
  | .addOutputBase a n :: ops => ⟨a.toBytes, n⟩ :: outputsOf ops
  | .addOutputEnterprise a n :: ops => ⟨a.toBytes, n⟩ :: outputsOf ops
  | _ :: ops => outputsOf ops

/-- The certificates asked for, in order, with the deposits announced for them. -/
def certsOf : List Op → List (Certificate × Nat)
  | [] => []
  | .poolRegistration p d :: ops => (.poolReg p, d) :: certsOf ops
  | .poolRetirement p e :: ops => (.poolRetire p e, 0) :: certsOf ops
  | .stakeRegistration a d :: ops => (.stakeReg ⟨.keyHash, a.key.take 28⟩, d) :: certsOf ops
  | .stakeDeregistration a :: ops => (.stakeDereg ⟨.keyHash, a.key.take 28⟩, 0) :: certsOf ops
  | .stakeDelegation a p :: ops => (.delegation ⟨.keyHash, a.key.take 28⟩ p, 0) :: certsOf ops
  | _ :: ops => certsOf ops

/-- The last time to live asked for. -/
def ttlOf : List Op → Option Nat
  | [] => none
  | .setTtl t :: ops => some ((ttlOf ops).getD t)
  | _ :: ops => ttlOf ops

/-- The last fee asked for. -/
def feeOf : List Op → Option Nat
  | [] => none
  | .setFee f :: ops => some ((feeOf ops).getD f)
  | _ :: ops => feeOf ops

/-- The history does not ask the builder to compute a fee or change. -/
def NoComputedFee (ops : List Op) : Prop :=
  ∀ op ∈ ops, (∀ n, op ≠ .updateFee n) ∧ (∀ n f, op ≠ .balance n f)

/-- Sum of the values added as inputs or withdrawals, counting every call. -/
def addedSum (ops : List Op) : Nat := ((inputsOf ops).map (·.value)).sum + ((withdrawalsOf ops).map (·.2)).sum

/-- Sum of the announced deposits. -/
def depositSum (ops : List Op) : Nat := ((certsOf ops).map (·.2)).sum

/-- The witness is a signature of `id` that the network accepts. -/
def Verifies (E : Env) (id : Bytes) (w : VkeyWitness) : Prop :=
  E.S.verify w.vkey id w.sig = true ∨ Ed.verifyDetached E.C E.P.sha512 w.sig id w.vkey = true

/-- Keys passed to `sign` have the C++ types' sizes. -/
def KeyWF : SKey → Prop
  | .ed seed => seed.length = 32
  | .bip k => k.WF

/-- Is this a call that adds a certificate? -/
def isCert : Op → Bool
  | .poolRegistration .. | .poolRetirement .. | .stakeRegistration .. | .stakeDeregistration ..
  | .stakeDelegation .. => true
  | _ => false

/-- Is this a call after which there are no key witnesses?  (`addInput` only if it succeeds.) -/
def clears : Op → Bool
  | .addInput u => !decide (u.id.length < 32)
  | .addOutputBase .. | .addOutputEnterprise .. | .addWithdrawal .. | .setFee .. | .updateFee ..
  | .setTtl .. | .balance .. | .clearWitnessSet => true
  | _ => false

/-- No certificate is added while the transaction may be signed: between a `sign` and a later
certificate there is a call that removes the witnesses. -/
def CertsBeforeSigning : Bool → List Op → Prop
  | _, [] => True
  | _, .sign _ :: ops => CertsBeforeSigning true ops
  | signed, op :: ops =>
    (isCert op = true → signed = false) ∧ CertsBeforeSigning (signed && !clears op) ops

end Cardano.Spec.TxBuilder
