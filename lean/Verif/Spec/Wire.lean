import Verif.Spec.LedgerRules
import Verif.Spec.LedgerMeaning
import Verif.Spec.Rfc8949
import Verif.Spec.TxHistory

/-! # When the network accepts a byte string

What a node does with the bytes it is sent: it reads them as CBOR (RFC 8949), takes them for a transaction of the CDDL, and applies the rules of
`Verif.Spec.LedgerRules` to the bytes it got: the size is the number of bytes, the id is the hash of the bytes of the body. -/

namespace Cardano.Spec.Wire

open Cardano Cardano.Cbor Cardano.Ledger Cardano.TxBuilder Cardano.Spec.Ledger Cardano.Spec.TxBuilder Cardano.Spec.LedgerRules Cardano.Spec.Rfc8949

/-- The rules of `LedgerRules.Accepts` for a transaction of `size` bytes whose body arrived as the bytes `body`. -/
structure Rules (N : Crypto) (pp : Params) (st : State) (t : Tx) (size : Nat) (body : Bytes) : Prop where
  notExpired : st.slot ≤ t.body.ttl
  someInput : t.body.inputs ≠ []
  inputsExist : ∀ i ∈ t.body.inputs, ∃ addr n, st.utxo i = some (addr, n) ∧ (paymentKey addr).isSome
  rewardAccounts : ∀ w ∈ t.body.withdrawals, (rewardKey w.1).isSome
  valuePreserved : consumed st.value pp.keyDeposit t.body = produced (totalDeposits pp st t.body.certificates) t.body
  outputsLarge : ∀ o ∈ t.body.outputs, pp.minUtxo ≤ o.amount
  network : (∀ o ∈ t.body.outputs, networkOf o.address = some st.network) ∧
    ∀ w ∈ t.body.withdrawals, networkOf w.1 = some st.network
  feePaid : minFee pp.minFeeA pp.minFeeB size ≤ t.body.fee
  notTooBig : size ≤ pp.maxTxSize
  witnesses : (∀ w ∈ t.wits.vkeys, N.verify w.vkey (N.bodyHash body) w.sig = true) ∧
    ∀ h ∈ keysNeeded st t.body, ∃ w ∈ t.wits.vkeys, N.keyHash w.vkey = h

/-- A transaction to which only the rules above apply: no metadata, no protocol update, no scripts, no Byron witnesses. -/
structure Plain (t : Tx) : Prop where
  noUpdate : t.body.update = false
  noHash : t.body.metadataHash = none
  noScripts : t.wits.multisig = []
  noBootstrap : t.wits.bootstrap = []
  noMetadata : t.metadata = false

/-- The bytes are, from the first to the last, a CBOR array of three items. -/
structure ThreeItems (bytes : Bytes) (b w m : Item) (body : Bytes) : Prop where
  split : ∃ head wits last : Bytes, bytes = head ++ body ++ wits ++ last ∧ Head 4 3 head ∧ Encodes w wits ∧ Encodes m last
  body : Encodes b body

/-- The network accepts these bytes. -/
def AcceptsBytes (N : Crypto) (pp : Params) (st : State) (bytes : Bytes) : Prop :=
  ∃ b w m body t, ThreeItems bytes b w m body ∧ TxMeans (.array [b, w, m]) t ∧ Plain t ∧ Rules N pp st t bytes.length body

/-- The arguments of a call have the sizes of the C++ types. -/
def ArgsWF : Op → Prop
  | .addInput u => u.index < 2 ^ 64
  | .addOutputBase a n => a.pmt.length = 28 ∧ a.stk.length = 28 ∧ n < 2 ^ 64
  | .addOutputEnterprise a n => a.key.length = 28 ∧ n < 2 ^ 64
  | .addWithdrawal a n => a.key.length = 28 ∧ n < 2 ^ 64
  | .poolRegistration p _ => PoolRep p
  | .poolRetirement pool e => pool.length = 28 ∧ e < 2 ^ 64
  | .stakeRegistration a _ => a.key.length = 28
  | .stakeDeregistration a => a.key.length = 28
  | .stakeDelegation a pool => a.key.length = 28 ∧ pool.length = 28
  | .setFee f => f < 2 ^ 64
  | .setTtl t => t < 2 ^ 64
  | .setChangeBase a => a.pmt.length = 28 ∧ a.stk.length = 28
  | .setChangeEnterprise a => a.key.length = 28
  | .sign key => KeyWF key
  | _ => True

/-- A relay that the CDDL allows and the library can write: with an IPv4 address, or a name of at most 64 bytes. -/
def RelayWritable : Relay → Prop
  | .addr v4 _ _ => v4 ≠ none
  | .name dns _ => dns.length ≤ 64
  | .multi dns => dns.length ≤ 64
  | .empty => False

/-- A pool registration whose bytes the network can read: at least one owner and one relay, every relay writable, and metadata with a url of at
most 64 bytes. -/
def PoolWritable (p : PoolParams) : Prop :=
  p.owners ≠ [] ∧ p.relays ≠ [] ∧ (∀ r ∈ p.relays, RelayWritable r) ∧ ∃ m, p.metadata = some m ∧ m.url.length ≤ 64

end Cardano.Spec.Wire
