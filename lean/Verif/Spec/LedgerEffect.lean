import Verif.Spec.LedgerRules

/-! # What an accepted transaction does to the ledger

The effect of the UTXO rule and the rules DELEGS, DELPL, DELEG and POOL of the Shelley ledger specification (sections 9 and 10) for stake
keys and pools: a small transcription, independent of the library.  Stake scripts, genesis delegations and
instantaneous rewards are not covered (they are rejected here); the change of epochs is not modelled. -/

namespace Cardano.Spec.LedgerRules

open Cardano Cardano.Ledger Cardano.Spec.TxBuilder

/-- Stake keys and pools: the balance of every registered stake key, the pool it is delegated to, the registered pools, parameters
that come into force in the next epoch, and announced retirements. -/
structure Stake where
  rewards : Bytes → Option Nat
  delegatedTo : Bytes → Option Bytes
  pools : Bytes → Option PoolParams
  future : Bytes → Option PoolParams
  retiring : Bytes → Option Nat

/-- Current epoch and protocol parameters for pools. -/
structure StakeParams where
  epoch : Nat
  maxEpoch : Nat
  minPoolCost : Nat

/-- Replace one entry. -/
def put {α : Type} (f : Bytes → Option α) (k : Bytes) (v : Option α) : Bytes → Option α := fun x => if x = k then v else f x

/-- One certificate; `none` if it is not allowed. -/
def certRule (sp : StakeParams) (s : Stake) : Certificate → Option Stake
  | .stakeReg c => (credKey c).bind fun h =>
    if s.rewards h = none then some { s with rewards := put s.rewards h (some 0) } else none
  | .stakeDereg c => (credKey c).bind fun h =>
    if s.rewards h = some 0 then some { s with rewards := put s.rewards h none, delegatedTo := put s.delegatedTo h none } else none
  | .delegation c p => (credKey c).bind fun h =>
    if s.rewards h ≠ none ∧ (s.pools p).isSome then some { s with delegatedTo := put s.delegatedTo h (some p) } else none
  | .poolReg p =>
    if p.cost < sp.minPoolCost then none
    else if (s.pools p.operator).isSome then
      some { s with future := put s.future p.operator (some p), retiring := put s.retiring p.operator none }
    else some { s with pools := put s.pools p.operator (some p) }
  | .poolRetire p e =>
    if (s.pools p).isSome ∧ sp.epoch < e ∧ e ≤ sp.epoch + sp.maxEpoch then some { s with retiring := put s.retiring p (some e) }
    else none
  | _ => none

/-- Certificates, in order. -/
def certRules (sp : StakeParams) : Stake → List Certificate → Option Stake
  | s, [] => some s
  | s, c :: cs => (certRule sp s c).bind fun s' => certRules sp s' cs

/-- Reward accounts after withdrawals. -/
def withdrawn (s : Stake) (ws : List (Bytes × Nat)) : Stake :=
  { s with rewards := fun h => if ws.any fun w => rewardKey w.1 == some h then some 0 else s.rewards h }

/-- Withdrawals (always the whole balance) and certificates turn `s` into `s'`. -/
def Delegs (sp : StakeParams) (s : Stake) (ws : List (Bytes × Nat)) (cs : List Certificate) (s' : Stake) : Prop :=
  (∀ w ∈ ws, ∃ h, rewardKey w.1 = some h ∧ s.rewards h = some w.2) ∧ certRules sp (withdrawn s ws) cs = some s'

/-- Unspent outputs after a transaction with this id. -/
def utxoAfter (u : TxIn → Option (Bytes × Nat)) (id : Bytes) (b : TxBody) : TxIn → Option (Bytes × Nat) := fun i =>
  match (if i.txId = id then b.outputs[i.index]? else none) with
  | some o => some (o.address, o.amount)
  | none => if i ∈ b.inputs then none else u i

/-- The ledger. -/
structure State2 where
  st : State
  stake : Stake

/-- The two descriptions of the registered pools agree. -/
def State2.Consistent (L : State2) : Prop := ∀ p, p ∈ L.st.pools ↔ (L.stake.pools p).isSome

/-- The network accepts the transaction, and this is the ledger afterwards. -/
structure Applied (N : Crypto) (pp : Params) (sp : StakeParams) (L : State2) (t : Tx) (L' : State2) : Prop where
  accepted : Accepts N pp L.st t
  stake : Delegs sp L.stake t.body.withdrawals t.body.certificates L'.stake
  utxo : ∃ bytes, t.body.serialize = .ok bytes ∧ L'.st.utxo = utxoAfter L.st.utxo (N.bodyHash bytes) t.body
  pools : L'.Consistent
  same : L'.st.slot = L.st.slot ∧ L'.st.network = L.st.network

end Cardano.Spec.LedgerRules
