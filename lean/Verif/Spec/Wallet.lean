import Verif.Spec.LedgerRules
import Verif.Spec.TxHistory
import Verif.Model.AddressKeys
import Verif.Spec.Bip32

/-! # A wallet that uses the builder

What a careful wallet does: the vocabulary of C90 and C91. -/

namespace Cardano.Spec.Wallet

open Cardano Cardano.Ed Cardano.Ledger Cardano.TxBuilder Cardano.Spec.TxBuilder Cardano.Spec.LedgerRules

/-- Library and network use the same Blake2b-256 and the same Ed25519 verification. -/
structure SameCrypto (E : Env) (N : Crypto) : Prop where
  hash : N.bodyHash = E.S.hash
  ed25519 : ∀ pub msg sig, E.S.verify pub msg sig = N.verify pub msg sig
  extended : ∀ pub msg sig, Ed.verifyDetached E.C E.P.sha512 sig msg pub = N.verify pub msg sig

/-- The key can sign this message: right sizes, and neither its scalar nor the nonce of the signature is a
multiple of the group order (for derived keys and hash outputs that never happens in practice). -/
def CanSign (E : Env) (id : Bytes) : SKey → Prop
  | .ed seed => seed.length = 32 ∧ ¬ E.S.zeroNonce seed id
  | .bip k => k.WF ∧ ¬ ellL ∣ Spec.Bip32.kL k.key ∧ ¬ ellL ∣ leNat (E.P.sha512 (k.key.drop 32 ++ id))

/-- The wallet holds the signing key of this key hash. -/
def Holds (E : Env) (N : Crypto) (keys : List SKey) (h : Bytes) : Prop :=
  ∃ key ∈ keys, ∃ pub, key.pub E = .ok pub ∧ N.keyHash pub = h

/-- The change address of the history: the last one set. -/
def changeOf : List Op → Bytes → Bytes
  | [], a => a
  | .setChangeBase x :: ops, _ => changeOf ops x.toBytes
  | .setChangeEnterprise x :: ops, _ => changeOf ops x.toBytes
  | _ :: ops, a => changeOf ops a

/-- The fee parameters of the history: the last ones set. -/
def feeParams : List Op → Int × Int → Int × Int
  | [], p => p
  | .setMinFeeA x :: ops, p => feeParams ops (x, p.2)
  | .setMinFeeB x :: ops, p => feeParams ops (p.1, x)
  | _ :: ops, p => feeParams ops p

/-- A preparation of a transaction by someone who can sign for the key hashes `own`: they spend their own unspent
outputs with their true values, withdraw from their own reward accounts, announce the true deposits, pay at
least the minimum to addresses of the network, and set a time to live, a change address and the network's fee parameters. -/
structure PreparedFor (own : Bytes → Prop) (pp : Params) (st : State) (ops : List Op) : Prop where
  inputs : ∀ u ∈ inputsOf ops, ∃ addr h, st.utxo (spends u) = some (addr, u.value) ∧ paymentKey addr = some h ∧
    own h
  someInput : inputsOf ops ≠ []
  withdrawals : ∀ w ∈ withdrawalsOf ops, ∃ h, rewardKey w.1 = some h ∧ own h ∧
    networkOf w.1 = some st.network
  certificates : ∀ c ∈ (certsOf ops).map (·.1), ∀ h ∈ certKeys c, own h
  deposits : depositSum ops = totalDeposits pp st ((certsOf ops).map (·.1))
  outputs : ∀ o ∈ outputsOf ops, pp.minUtxo ≤ o.amount ∧ o.amount < 2 ^ 63 ∧ networkOf o.address = some st.network
  ttl : ∃ t, ttlOf ops = some t ∧ st.slot ≤ t
  change : networkOf (changeOf ops []) = some st.network
  fees : feeParams ops (44, 155381) = ((pp.minFeeA : Int), (pp.minFeeB : Int))
  amounts : addedSum ops < 2 ^ 62 ∧ depositSum ops < 2 ^ 63
  noComputedFee : NoComputedFee ops

/-- The builder has counted right: what the history added up is what the transaction with this body takes from its inputs (each once), its
withdrawals (each address once) and the refunds of its deregistrations. -/
def CountedRight (pp : Params) (st : State) (ops : List Op) (b : TxBody) : Prop :=
  addedSum ops = inputSum st.value b.inputs + withdrawalSum b.withdrawals + pp.keyDeposit * deregistrations b.certificates

/-- A careful preparation: it also uses every input and every withdrawal address once, and has no stake key
deregistration. -/
structure CarefulFor (own : Bytes → Prop) (pp : Params) (st : State) (ops : List Op) : Prop
    extends PreparedFor own pp st ops where
  inputsOnce : ((inputsOf ops).map spends).Nodup
  withdrawalsOnce : ((withdrawalsOf ops).map (·.1)).Nodup
  noDeregistration : ∀ a, Op.stakeDeregistration a ∉ ops

/-- A careful preparation by a wallet with these signing keys. -/
abbrev Careful (E : Env) (N : Crypto) (pp : Params) (st : State) (keys : List SKey) (ops : List Op) : Prop :=
  CarefulFor (Holds E N keys) pp st ops

/-- CIP-1852: the path of the payment key number `i` of an account, m/1852'/1815'/account'/0/i. -/
def paymentPath (account i : UInt32) : List UInt32 := [2 ^ 31 + 1852, 2 ^ 31 + 1815, 2 ^ 31 + account, 0, i]

/-- CIP-1852 with CIP-11: the path of the stake key of an account, m/1852'/1815'/account'/2/0. -/
def stakePath (account : UInt32) : List UInt32 := [2 ^ 31 + 1852, 2 ^ 31 + 1815, 2 ^ 31 + account, 2, 0]

end Cardano.Spec.Wallet
