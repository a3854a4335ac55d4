import Verif.Spec.Ledger
import Verif.Spec.LedgerRules
import Verif.Spec.BabbageHistory
import Verif.Spec.Wallet

/-! # When the network accepts a Babbage transaction

The UTXO and UTXOW rules of the Babbage ledger specification for transactions without scripts, certificates, minting,
collateral, auxiliary data and Byron addresses, i.e. what the library's Babbage builder can express: a small
transcription, independent of the library. -/

namespace Cardano.Spec.BabbageRules

open Cardano Cardano.Ledger Cardano.Spec.LedgerRules Cardano.Spec.BabbageBuilder Cardano.Spec.Wallet
open Cardano.Spec.TxBuilder (minFee)
open Cardano.BabbageBuilder (Op)

/-- Protocol parameters. -/
structure Params where
  minFeeA : Nat
  minFeeB : Nat
  coinsPerByte : Nat
  maxTxSize : Nat

/-- Address and amount of an output, in either format. -/
def addressOf : Babbage.TxOut → Bytes
  | .pre o => o.address
  | .post o => o.address
def amountOf : Babbage.TxOut → Nat
  | .pre o => o.amount
  | .post o => o.amount

/-- Size in bytes of an output in the transaction. -/
def outputSize (o : Babbage.TxOut) : Nat := (Cbor.enc o.ser).length

/-- Least amount of an output: it pays for its size and a constant overhead. -/
def minAmount (pp : Params) (o : Babbage.TxOut) : Nat := pp.coinsPerByte * (160 + outputSize o)

/-- Sum of the outputs. -/
def outputSum (os : List Babbage.TxOut) : Nat := (os.map amountOf).sum

/-- The key hashes whose signatures are needed. -/
def keysNeeded (st : State) (b : Babbage.TxBody) : List Bytes :=
  b.inputs.filterMap (fun i => (st.utxo i).bind fun o => paymentKey o.1) ++ b.withdrawals.filterMap (fun w => rewardKey w.1)

/-- The network accepts the transaction.  The byte of the validity flag does not count for fee and size. -/
structure Accepts (N : Crypto) (pp : Params) (st : State) (t : Babbage.Tx) : Prop where
  format : ∃ i, t.serialize = Cbor.enc i ∧ Spec.Ledger.BabbageTxC i
  flag : t.flag = true
  interval : ∀ x, t.body.ttl = some x → st.slot < x
  someInput : t.body.inputs ≠ []
  inputsExist : ∀ i ∈ t.body.inputs, ∃ addr n, st.utxo i = some (addr, n) ∧ (paymentKey addr).isSome
  rewardAccounts : ∀ w ∈ t.body.withdrawals, (rewardKey w.1).isSome
  valuePreserved : (t.body.inputs.map st.value).sum + (t.body.withdrawals.map (·.2)).sum = outputSum t.body.outputs + t.body.fee
  outputsLarge : ∀ o ∈ t.body.outputs, minAmount pp o ≤ amountOf o
  network : (∀ o ∈ t.body.outputs, networkOf (addressOf o) = some st.network) ∧
    ∀ w ∈ t.body.withdrawals, networkOf w.1 = some st.network
  fee : minFee pp.minFeeA pp.minFeeB (t.serialize.length - 1) ≤ t.body.fee
  size : t.serialize.length - 1 ≤ pp.maxTxSize
  witnesses : (∀ w ∈ t.wits.vkeys, N.verify w.vkey (N.bodyHash t.body.serialize) w.sig = true) ∧
    ∀ h ∈ keysNeeded st t.body, ∃ w ∈ t.wits.vkeys, N.keyHash w.vkey = h

/-- A careful preparation: the wallet spends its own unspent outputs, once each, withdraws from its own reward
accounts, once each, pays enough to addresses of the network, and uses the network's fee parameters. -/
structure Careful (E : TxBuilder.Env) (N : Crypto) (pp : Params) (st : State) (keys : List TxBuilder.SKey) (ops : List Op) : Prop where
  args : ∀ op ∈ ops, ArgsWF op
  inputs : ∀ i ∈ inputsOf ops, ∃ addr n h, st.utxo i = some (addr, n) ∧ paymentKey addr = some h ∧ Holds E N keys h
  inputsOnce : (inputsOf ops).Nodup
  someInput : inputsOf ops ≠ []
  withdrawals : ∀ w ∈ withdrawalsOf ops, ∃ h, rewardKey w.1 = some h ∧ Holds E N keys h ∧ networkOf w.1 = some st.network
  withdrawalsOnce : ((withdrawalsOf ops).map (·.1)).Nodup
  outputs : ∀ o ∈ outputsOf ops, minAmount pp o ≤ amountOf o ∧ networkOf (addressOf o) = some st.network
  ttl : ∀ t, ttlOf ops = some t → st.slot < t
  feeA : lastSet minFeeA? 44 ops = pp.minFeeA
  feeB : lastSet minFeeB? 155381 ops = pp.minFeeB
  short : ops.length < 2 ^ 59

/-- What is left for change and fee after the payments. -/
def Left (st : State) (ops : List Op) (m : Nat) : Prop :=
  ((inputsOf ops).map st.value).sum + ((withdrawalsOf ops).map (·.2)).sum = outputSum (outputsOf ops) + m

end Cardano.Spec.BabbageRules
