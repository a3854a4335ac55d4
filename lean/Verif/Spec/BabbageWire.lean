import Verif.Spec.BabbageRules
import Verif.Spec.BabbageMeaning
import Verif.Spec.Rfc8949
import Mathlib.Data.List.Forall2

/-! # When the network accepts the bytes of a Babbage transaction

What a node does with the bytes it is sent: it reads them as CBOR (RFC 8949), takes them for a transaction of the Babbage CDDL, and applies the
rules of `Verif.Spec.BabbageRules` to the bytes it got: the size is the number of bytes without the one of the validity flag, the id is the hash
of the bytes of the body, and an output must pay for the bytes in which it arrived. -/

namespace Cardano.Spec.BabbageWire

open Cardano Cardano.Cbor Cardano.Ledger Cardano.Spec.Ledger Cardano.Spec.BabbageRules Cardano.Spec.Rfc8949
open Cardano.Spec.TxBuilder (minFee)
open Cardano.Spec.LedgerRules (Crypto State paymentKey rewardKey networkOf)

/-- An entry of a map with number keys: key, its bytes, value, its bytes. -/
structure Entry where
  key : Nat
  keyBytes : Bytes
  value : Item
  valueBytes : Bytes

/-- The bytes are a map with these entries. -/
structure MapBytes (bytes : Bytes) (es : List Entry) : Prop where
  split : ∃ head, bytes = head ++ es.flatMap (fun e => e.keyBytes ++ e.valueBytes) ∧ Head 5 es.length head
  keys : ∀ e ∈ es, Encodes (.uint e.key) e.keyBytes
  values : ∀ e ∈ es, Encodes e.value e.valueBytes
  once : (es.map Entry.key).Nodup

/-- The bytes are an array whose elements arrived as the byte strings `parts`. -/
def ArrayBytes (bytes : Bytes) (parts : List Bytes) : Prop :=
  ∃ head, bytes = head ++ parts.flatten ∧ Head 4 parts.length head ∧ ∀ p ∈ parts, ∃ i, Encodes i p

/-- The outputs (key 1) of the body with the bytes `body` arrived as the byte strings `parts`. -/
def OutputBytes (body : Bytes) (parts : List Bytes) : Prop :=
  ∃ es, MapBytes body es ∧ ∃ e ∈ es, e.key = 1 ∧ ArrayBytes e.valueBytes parts

/-- The bytes are, from the first to the last, a CBOR array of four items, the last two being the validity flag and null. -/
def FourItems (bytes : Bytes) (b w : Item) (flag : Bool) (body : Bytes) : Prop :=
  ∃ head wits f last, bytes = head ++ body ++ wits ++ f ++ last ∧ Head 4 4 head ∧ Encodes b body ∧ Encodes w wits ∧ Encodes (.bool flag) f ∧
    Encodes .null last

/-- The rules of `BabbageRules.Accepts` for a transaction of `size` bytes whose body arrived as `body` and whose outputs arrived as `outs`. -/
structure Rules (N : Crypto) (pp : Params) (st : State) (t : Babbage.Tx) (size : Nat) (body : Bytes) (outs : List Bytes) : Prop where
  flag : t.flag = true
  interval : ∀ x, t.body.ttl = some x → st.slot < x
  someInput : t.body.inputs ≠ []
  inputsExist : ∀ i ∈ t.body.inputs, ∃ addr n, st.utxo i = some (addr, n) ∧ (paymentKey addr).isSome
  rewardAccounts : ∀ w ∈ t.body.withdrawals, (rewardKey w.1).isSome
  valuePreserved : (t.body.inputs.map st.value).sum + (t.body.withdrawals.map (·.2)).sum = outputSum t.body.outputs + t.body.fee
  outputsLarge : List.Forall₂ (fun o arrived => pp.coinsPerByte * (160 + arrived.length) ≤ amountOf o) t.body.outputs outs
  network : (∀ o ∈ t.body.outputs, networkOf (addressOf o) = some st.network) ∧
    ∀ w ∈ t.body.withdrawals, networkOf w.1 = some st.network
  fee : minFee pp.minFeeA pp.minFeeB (size - 1) ≤ t.body.fee
  notTooBig : size - 1 ≤ pp.maxTxSize
  witnesses : (∀ w ∈ t.wits.vkeys, N.verify w.vkey (N.bodyHash body) w.sig = true) ∧
    ∀ h ∈ BabbageRules.keysNeeded st t.body, ∃ w ∈ t.wits.vkeys, N.keyHash w.vkey = h

/-- The network accepts these bytes: a transaction without certificates that obeys the rules. -/
def AcceptsBytes (N : Crypto) (pp : Params) (st : State) (bytes : Bytes) : Prop :=
  ∃ b w flag body outs t, FourItems bytes b w flag body ∧ BabbageTxMeans (.array [b, w, .bool flag, .null]) t ∧
    OutputBytes body outs ∧ t.body.certificates = [] ∧ Rules N pp st t bytes.length body outs

end Cardano.Spec.BabbageWire
