import Verif.Spec.Ledger
import Mathlib.Data.List.Forall2

/-! # What the CBOR of a Shelley transaction means

A relation between CBOR items and values, written from the CDDL of the Shelley ledger (reproduced in the comments of
`ledger.hpp`) and independent of the library's readers and writers. -/

namespace Cardano.Spec.Ledger

open Cardano.Cbor Cardano.Ledger

/-- The pairs of a CBOR map as the list of items that follows its header. -/
def flat {α β} (f : α → Item) (g : β → Item) (ps : List (α × β)) : List Item := ps.flatMap fun kv => [f kv.1, g kv.2]

/-- `stake_credential = [0, addr_keyhash // 1, scripthash]`. -/
def CredMeans (i : Item) : StakeCredential → Prop
  | ⟨.keyHash, h⟩ => i = .array [.uint 0, .bstr h] ∧ h.length = 28
  | ⟨.scriptHash, h⟩ => i = .array [.uint 1, .bstr h] ∧ h.length = 28

/-- `x / null`. -/
def OptMeans {α} (p : Item → α → Prop) (i : Item) : Option α → Prop
  | none => i = .null
  | some a => p i a

/-- `port = uint .le 65535`. -/
def PortMeans (i : Item) (n : Nat) : Prop := i = .uint n ∧ n ≤ 65535

/-- `bytes .size n`. -/
def BytesMean (n : Nat) (i : Item) (b : Bytes) : Prop := i = .bstr b ∧ b.length = n

/-- `relay = [0, port / null, ipv4 / null, ipv6 / null // 1, port / null, dns_name // 2, dns_name]`. -/
def RelayMeans (i : Item) : Relay → Prop
  | .empty => False
  | .addr v4 v6 port => ∃ a b c, i = .array [.uint 0, a, b, c] ∧ OptMeans PortMeans a port ∧
      OptMeans (BytesMean 4) b v4 ∧ OptMeans (BytesMean 16) c v6
  | .name dns port => ∃ a, i = .array [.uint 1, a, .tstr dns] ∧ OptMeans PortMeans a port ∧ dns.length ≤ 64
  | .multi dns => i = .array [.uint 2, .tstr dns] ∧ dns.length ≤ 64

/-- `pool_metadata = [url, metadata_hash]`. -/
def MetaMeans (i : Item) (m : PoolMetadata) : Prop :=
  i = .array [.tstr m.url, .bstr m.hash] ∧ m.url.length ≤ 64 ∧ m.hash.length = 32

/-- `pool_registration = (3, operator, vrf_keyhash, pledge, cost, margin, reward_account, set<addr_keyhash>, [* relay],
pool_metadata / null)`.  The owners are a set: here sorted, as a `std::set` keeps them. -/
def PoolMeans (i : Item) (p : PoolParams) : Prop :=
  ∃ os rs md, i = .array [.uint 3, .bstr p.operator, .bstr p.vrfKeyHash, .uint p.pledge, .uint p.cost,
      .tag 30 (.array [.uint p.margin.num, .uint p.margin.den]), .bstr p.rewardAccount, .array os, .array rs, md] ∧
    p.operator.length = 28 ∧ p.vrfKeyHash.length = 32 ∧
    StrictSorted bytesLt p.owners ∧ (∀ x, x ∈ os ↔ ∃ h ∈ p.owners, BytesMean 28 x h) ∧
    (∀ h ∈ p.owners, h.length = 28) ∧
    List.Forall₂ RelayMeans rs p.relays ∧ OptMeans MetaMeans md p.metadata

/-- `move_instantaneous_reward = [0 / 1, {* stake_credential => coin}]`. -/
def MirMeans (i : Item) (m : MIR) : Prop :=
  ∃ ps : List (Item × Item), i = .array [.uint (match m.source with | .reserves => 0 | .treasury => 1), .map (flat id id ps)] ∧
    (ps.map (·.1)).Nodup ∧ List.Forall₂ (fun kv e => CredMeans kv.1 e.1 ∧ kv.2 = .uint e.2) ps m.creds

/-- `certificate`. -/
def CertMeans (i : Item) : Certificate → Prop
  | .empty => False
  | .stakeReg c => ∃ x, i = .array [.uint 0, x] ∧ CredMeans x c
  | .stakeDereg c => ∃ x, i = .array [.uint 1, x] ∧ CredMeans x c
  | .delegation c pool => ∃ x, i = .array [.uint 2, x, .bstr pool] ∧ CredMeans x c ∧ pool.length = 28
  | .poolReg p => PoolMeans i p
  | .poolRetire pool epoch => i = .array [.uint 4, .bstr pool, .uint epoch] ∧ pool.length = 28
  | .genesisDeleg g d v => i = .array [.uint 5, .bstr g, .bstr d, .bstr v] ∧ g.length = 28 ∧ d.length = 28 ∧ v.length = 32
  | .mir m => ∃ x, i = .array [.uint 6, x] ∧ MirMeans x m

/-- `transaction_input = [transaction_id, index]`. -/
def InMeans (i : Item) (t : TxIn) : Prop := i = .array [.bstr t.txId, .uint t.index] ∧ t.txId.length = 32

/-- `transaction_output = [address, amount]`. -/
def OutMeans (i : Item) (o : TxOut) : Prop := i = .array [.bstr o.address, .uint o.amount]

/-- The entry of an optional key: absent means nothing. -/
def At (ps : List (Nat × Item)) (k : Nat) (absent : Prop) (p : Item → Prop) : Prop :=
  (∃ v, (k, v) ∈ ps ∧ p v) ∨ (k ∉ ps.map (·.1) ∧ absent)

/-- An array whose elements mean the elements of the list, in order. -/
def ArrayMeans {α} (p : Item → α → Prop) (l : List α) (i : Item) : Prop := ∃ xs, i = .array xs ∧ List.Forall₂ p xs l

/-- `transaction_body = {0: set<transaction_input>, 1: [* transaction_output], 2: coin, 3: uint, ? 4: [* certificate],
? 5: {* reward_account => coin}, ? 6: update, ? 7: metadata_hash}`, with its keys in any order.  The inputs and the
withdrawals are sorted, as `std::set` and `std::map` keep them. -/
def BodyMeans (i : Item) (b : TxBody) : Prop :=
  ∃ ps : List (Nat × Item), i = .map (flat .uint id ps) ∧ (ps.map (·.1)).Nodup ∧ (∀ k ∈ ps.map (·.1), k ≤ 7) ∧
    (∃ xs, (0, .array xs) ∈ ps ∧ xs.Nodup ∧ StrictSorted TxIn.lt b.inputs ∧
      (∀ x ∈ xs, ∃ t ∈ b.inputs, InMeans x t) ∧ ∀ t ∈ b.inputs, ∃ x ∈ xs, InMeans x t) ∧
    (∃ v, (1, v) ∈ ps ∧ ArrayMeans OutMeans b.outputs v) ∧
    (2, .uint b.fee) ∈ ps ∧ (3, .uint b.ttl) ∈ ps ∧
    At ps 4 (b.certificates = []) (ArrayMeans CertMeans b.certificates) ∧
    At ps 5 (b.withdrawals = []) (fun v => ∃ ws : List (Bytes × Nat), v = .map (flat .bstr .uint ws) ∧
      (ws.map (·.1)).Nodup ∧ StrictSorted bytesLt (b.withdrawals.map (·.1)) ∧ b.withdrawals.Perm ws) ∧
    (b.update = true ↔ 6 ∈ ps.map (·.1)) ∧
    At ps 7 (b.metadataHash = none) (fun v => ∃ h, v = .bstr h ∧ h.length = 32 ∧ b.metadataHash = some h)

/-- `multisig_script`. -/
inductive ScriptMeans : Item → Script → Prop
  | pubkey {h : Bytes} : h.length = 28 → ScriptMeans (.array [.uint 0, .bstr h]) (.pubkey h)
  | all {ps : List (Item × Script)} : (∀ p ∈ ps, ScriptMeans p.1 p.2) →
      ScriptMeans (.array [.uint 1, .array (ps.map (·.1))]) (.all (ps.map (·.2)))
  | any {ps : List (Item × Script)} : (∀ p ∈ ps, ScriptMeans p.1 p.2) →
      ScriptMeans (.array [.uint 2, .array (ps.map (·.1))]) (.any (ps.map (·.2)))
  | nOfK {n : Nat} {ps : List (Item × Script)} : (∀ p ∈ ps, ScriptMeans p.1 p.2) →
      ScriptMeans (.array [.uint 3, .uint n, .array (ps.map (·.1))]) (.nOfK n (ps.map (·.2)))

/-- `vkeywitness = [vkey, signature]`. -/
def VkeyMeans (i : Item) (w : VkeyWitness) : Prop :=
  i = .array [.bstr w.vkey, .bstr w.sig] ∧ w.vkey.length = 32 ∧ w.sig.length = 64

/-- `bootstrap_witness = [public_key, signature, chain_code, attributes]`. -/
def BootstrapMeans (i : Item) (w : BootstrapWitness) : Prop :=
  i = .array [.bstr w.publicKey, .bstr w.signature, .bstr w.chainCode, .bstr w.attributes] ∧
    w.publicKey.length = 32 ∧ w.signature.length = 64 ∧ w.chainCode.length = 32

/-- `transaction_witness_set = {? 0: [* vkeywitness], ? 1: [* multisig_script], ? 2: [* bootstrap_witness]}`. -/
def WitsMeans (i : Item) (w : WitnessSet) : Prop :=
  ∃ ps : List (Nat × Item), i = .map (flat .uint id ps) ∧ (ps.map (·.1)).Nodup ∧ (∀ k ∈ ps.map (·.1), k ≤ 2) ∧
    At ps 0 (w.vkeys = []) (ArrayMeans VkeyMeans w.vkeys) ∧
    At ps 1 (w.multisig = []) (ArrayMeans ScriptMeans w.multisig) ∧
    At ps 2 (w.bootstrap = []) (ArrayMeans BootstrapMeans w.bootstrap)

/-- `transaction = [transaction_body, transaction_witness_set, transaction_metadata / null]`; of update and metadata only the
presence is told. -/
def TxMeans (i : Item) (t : Tx) : Prop :=
  ∃ b w m, i = .array [b, w, m] ∧ BodyMeans b t.body ∧ WitsMeans w t.wits ∧ (t.metadata = true ↔ m ≠ .null)

/-! ## What the library loses -/

/-- The certificates the library can read: all but genesis key delegations and pool registrations whose margin has
denominator 0. -/
def CertReadable : Certificate → Prop
  | .genesisDeleg _ _ _ => False
  | .poolReg p => p.margin.den ≠ 0
  | _ => True

/-- What is read of a certificate: of a pool registration neither the relays nor the metadata. -/
def certRead : Certificate → Certificate
  | .poolReg p => .poolReg { p with relays := [], metadata := none }
  | c => c

/-- What is read of a transaction: no update, no scripts, no bootstrap witnesses, no metadata. -/
def txRead (t : Tx) : Tx :=
  { body := { t.body with certificates := t.body.certificates.map certRead, update := false }
    wits := { vkeys := t.wits.vkeys, multisig := [], bootstrap := [] }
    metadata := false }

/-- What is written of a relay: of an address relay no IPv6 address. -/
def relayWritten : Relay → Relay
  | .addr v4 _ port => .addr v4 none port
  | r => r

/-- What is written of a certificate. -/
def certWritten : Certificate → Certificate
  | .poolReg p => .poolReg { p with relays := p.relays.map relayWritten }
  | c => c

/-- What is written of a transaction: no update and no bootstrap witnesses. -/
def txWritten (t : Tx) : Tx :=
  { t with body := { t.body with certificates := t.body.certificates.map certWritten, update := false }
           wits := { t.wits with bootstrap := [] } }

end Cardano.Spec.Ledger
