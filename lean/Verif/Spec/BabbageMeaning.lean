import Verif.Spec.LedgerMeaning
import Verif.Model.LedgerBabbage

/-! # What the CBOR of a Babbage transaction means

As `Verif.Spec.LedgerMeaning`, from the CDDL of the Babbage ledger, for the transactions that the library's types can
express: coin-only values, no inline datums, no entries beyond keys 0 to 5, key witnesses only. -/

namespace Cardano.Spec.Ledger

open Cardano.Cbor Cardano.Ledger

/-- `pre_babbage_transaction_output = [address, value, ? datum_hash]` and
`post_alonzo_transaction_output = {0: address, 1: value, ? 3: #6.24(bytes .cbor script)}`. -/
def BabbageOutMeans (i : Item) : Babbage.TxOut → Prop
  | .pre ⟨a, n, none⟩ => i = .array [.bstr a, .uint n]
  | .pre ⟨a, n, some h⟩ => i = .array [.bstr a, .uint n, .bstr h] ∧ h.length = 32
  | .post o => ∃ ps : List (Nat × Item), i = .map (flat .uint id ps) ∧ (ps.map (·.1)).Nodup ∧
      (∀ k ∈ ps.map (·.1), k = 0 ∨ k = 1 ∨ k = 3) ∧ (0, .bstr o.address) ∈ ps ∧ (1, .uint o.amount) ∈ ps ∧
      At ps 3 (o.scriptRef = none) (fun v => ∃ c, v = .tag 24 (.bstr c) ∧ o.scriptRef = some c)

/-- `transaction_body = {0: set<transaction_input>, 1: [* transaction_output], 2: coin, ? 3: uint, ? 4: [* certificate],
? 5: {* reward_account => coin}}`, with its keys in any order. -/
def BabbageBodyMeans (i : Item) (b : Babbage.TxBody) : Prop :=
  ∃ ps : List (Nat × Item), i = .map (flat .uint id ps) ∧ (ps.map (·.1)).Nodup ∧ (∀ k ∈ ps.map (·.1), k ≤ 5) ∧
    (∃ xs, (0, .array xs) ∈ ps ∧ xs.Nodup ∧ StrictSorted TxIn.lt b.inputs ∧
      (∀ x ∈ xs, ∃ t ∈ b.inputs, InMeans x t) ∧ ∀ t ∈ b.inputs, ∃ x ∈ xs, InMeans x t) ∧
    (∃ v, (1, v) ∈ ps ∧ ArrayMeans BabbageOutMeans b.outputs v) ∧
    (2, .uint b.fee) ∈ ps ∧
    At ps 3 (b.ttl = none) (fun v => ∃ n, v = .uint n ∧ b.ttl = some n) ∧
    At ps 4 (b.certificates = []) (ArrayMeans CertMeans b.certificates) ∧
    At ps 5 (b.withdrawals = []) (fun v => ∃ ws : List (Bytes × Nat), v = .map (flat .bstr .uint ws) ∧
      (ws.map (·.1)).Nodup ∧ StrictSorted bytesLt (b.withdrawals.map (·.1)) ∧ b.withdrawals.Perm ws)

/-- `transaction_witness_set = {? 0: [* vkeywitness]}`. -/
def BabbageWitsMeans (i : Item) (w : Babbage.WitnessSet) : Prop :=
  ∃ ps : List (Nat × Item), i = .map (flat .uint id ps) ∧ (ps.map (·.1)).Nodup ∧ (∀ k ∈ ps.map (·.1), k = 0) ∧
    At ps 0 (w.vkeys = []) (ArrayMeans VkeyMeans w.vkeys)

/-- `transaction = [transaction_body, transaction_witness_set, bool, null]`. -/
def BabbageTxMeans (i : Item) (t : Babbage.Tx) : Prop :=
  ∃ b w, i = .array [b, w, .bool t.flag, .null] ∧ BabbageBodyMeans b t.body ∧ BabbageWitsMeans w t.wits

/-- What the library writes of an output: no script reference. -/
def babbageOutWritten : Babbage.TxOut → Babbage.TxOut
  | .pre o => .pre o
  | .post o => .post { o with scriptRef := none }

/-- What the library writes of a transaction: no certificates, no script references. -/
def babbageWritten (t : Babbage.Tx) : Babbage.Tx :=
  { t with body := { t.body with certificates := [], outputs := t.body.outputs.map babbageOutWritten } }

end Cardano.Spec.Ledger
