import Verif.Spec.TxBuilder

/-! # When the network accepts a transaction

The UTXO and UTXOW rules of the Shelley ledger specification (sections 9 and 10), for transactions without
metadata, protocol updates, scripts and Byron addresses: a small transcription, independent of the library.  The state of stake
pools and reward accounts (rule DELEGS) is not part of it. -/

namespace Cardano.Spec.LedgerRules

open Cardano Cardano.Ledger Cardano.Spec.TxBuilder

/-- The primitives the network uses: Blake2b-224 of a verification key, Blake2b-256 of a transaction body and
Ed25519 verification (key, message, signature). -/
structure Crypto where
  keyHash : Bytes → Bytes
  bodyHash : Bytes → Bytes
  verify : Bytes → Bytes → Bytes → Bool

/-- Protocol parameters. -/
structure Params where
  minFeeA : Nat
  minFeeB : Nat
  keyDeposit : Nat
  poolDeposit : Nat
  minUtxo : Nat
  maxTxSize : Nat

/-- The part of the ledger state the rules look at: current slot, network number (0: test, 1: main), unspent
outputs (address and value) and the registered pools. -/
structure State where
  slot : Nat
  network : Nat
  utxo : TxIn → Option (Bytes × Nat)
  pools : List Bytes

/-- Value of the unspent output that an input refers to. -/
def State.value (st : State) (i : TxIn) : Nat := ((st.utxo i).map (·.2)).getD 0

/-- The payment key hash in an address (CIP-19): header types 0, 2, 4 and 6 are paid to a key, whose hash
follows the header. -/
def paymentKey (addr : Bytes) : Option Bytes :=
  match addr with
  | h :: rest => if h.toNat / 16 = 0 ∨ h.toNat / 16 = 2 ∨ h.toNat / 16 = 4 ∨ h.toNat / 16 = 6 then some (rest.take 28) else none
  | [] => none

/-- The stake key hash in a reward account (CIP-19, type 14). -/
def rewardKey (addr : Bytes) : Option Bytes :=
  match addr with
  | h :: rest => if h.toNat / 16 = 14 then some (rest.take 28) else none
  | [] => none

/-- The network in the header of an address. -/
def networkOf (addr : Bytes) : Option Nat := addr.head?.map (·.toNat % 16)

/-- The key of a credential, if it is not a script. -/
def credKey (c : StakeCredential) : Option Bytes :=
  match c.type with
  | .keyHash => some c.cred
  | .scriptHash => none

/-- The keys that must authorise a certificate; registering a stake key needs none. -/
def certKeys : Certificate → List Bytes
  | .stakeDereg c => (credKey c).toList
  | .delegation c _ => (credKey c).toList
  | .poolReg p => p.operator :: p.owners
  | .poolRetire pool _ => [pool]
  | .genesisDeleg g _ _ => [g]
  | _ => []

/-- The key hashes whose signatures a transaction needs (`witsVKeyNeeded`). -/
def keysNeeded (st : State) (b : TxBody) : List Bytes :=
  b.inputs.filterMap (fun i => (st.utxo i).bind fun o => paymentKey o.1) ++
  b.withdrawals.filterMap (fun w => rewardKey w.1) ++
  b.certificates.flatMap certKeys

/-- Pools registered by the certificates that are not registered yet, each once. -/
def newPools (pools : List Bytes) : List Certificate → List Bytes
  | [] => []
  | .poolReg p :: cs => if p.operator ∈ pools then newPools pools cs else p.operator :: newPools (p.operator :: pools) cs
  | _ :: cs => newPools pools cs

/-- Deposits owed (`totalDeposits`). -/
def totalDeposits (pp : Params) (st : State) (cs : List Certificate) : Nat :=
  pp.keyDeposit * cs.countP (fun c => match c with | .stakeReg _ => true | _ => false) +
  pp.poolDeposit * (newPools st.pools cs).length

/-- The network accepts the transaction (rules UTXO and UTXOW). -/
structure Accepts (N : Crypto) (pp : Params) (st : State) (t : Tx) : Prop where
  notExpired : st.slot ≤ t.body.ttl
  someInput : t.body.inputs ≠ []
  inputsExist : ∀ i ∈ t.body.inputs, ∃ addr n, st.utxo i = some (addr, n) ∧ (paymentKey addr).isSome
  rewardAccounts : ∀ w ∈ t.body.withdrawals, (rewardKey w.1).isSome
  valuePreserved : consumed st.value pp.keyDeposit t.body = produced (totalDeposits pp st t.body.certificates) t.body
  outputsLarge : ∀ o ∈ t.body.outputs, pp.minUtxo ≤ o.amount
  network : (∀ o ∈ t.body.outputs, networkOf o.address = some st.network) ∧
    ∀ w ∈ t.body.withdrawals, networkOf w.1 = some st.network
  size : ∃ s, TxSize t s ∧ minFee pp.minFeeA pp.minFeeB s ≤ t.body.fee ∧ s ≤ pp.maxTxSize
  witnesses : ∃ bytes, t.body.serialize = .ok bytes ∧
    (∀ w ∈ t.wits.vkeys, N.verify w.vkey (N.bodyHash bytes) w.sig = true) ∧
    ∀ h ∈ keysNeeded st t.body, ∃ w ∈ t.wits.vkeys, N.keyHash w.vkey = h

end Cardano.Spec.LedgerRules
