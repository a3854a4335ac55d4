import Verif.Spec.Wire
import Verif.Spec.BabbageWire
import Verif.Spec.BabbageHistory
import Verif.Spec.LedgerEffect
import Verif.Spec.Bip173
import Verif.Model.Address

/-! # Paying to a text address

What a text names (BIP-173 and CIP-19), what a payer does with it, and which outputs are unspent after the network has taken the bytes of a
transaction. -/

namespace Cardano.Spec.PayText

open Cardano Cardano.Address Cardano.Ledger Cardano.Cbor Cardano.Bip173 Cardano.Spec.Ledger

/-- The text names the address `addr` to which money can be paid: it is the BIP-173 string of these bytes, and they are a CIP-19 address of type
0 (payment and stake key) or 6 (payment key only). -/
def NamesAddress (s addr : Bytes) : Prop :=
  ∃ hrp h rest, IsString s hrp addr ∧ addr = h :: rest ∧
    ((h.toNat / 16 = 0 ∧ rest.length = 56) ∨ (h.toNat / 16 = 6 ∧ rest.length = 28))

/-- The call with which a user of the Shelley builder pays `n` to the text: read it with one of the two address classes, pass the address on. -/
inductive PaysText (s : Bytes) (n : Nat) : TxBuilder.Op → Prop
  | base (a : Base) (h : Base.fromBech32 s = .ok a) : PaysText s n (.addOutputBase a n)
  | enterprise (a : Single) (h : enterpriseFromBech32 s = .ok a) : PaysText s n (.addOutputEnterprise a n)

/-- The same for the Babbage builder. -/
inductive PaysTextBabbage (s : Bytes) (n : Nat) : BabbageBuilder.Op → Prop
  | base (a : Base) (pre : Bool) (h : Base.fromBech32 s = .ok a) : PaysTextBabbage s n (.addOutputBase a n pre)
  | enterprise (a : Single) (pre : Bool) (h : enterpriseFromBech32 s = .ok a) : PaysTextBabbage s n (.addOutputEnterprise a n pre)

/-- The network accepts these bytes (`Wire.AcceptsBytes`), and these outputs are unspent afterwards. -/
def Leaves (N : LedgerRules.Crypto) (pp : LedgerRules.Params) (st : LedgerRules.State) (bytes : Bytes)
    (utxo : TxIn → Option (Bytes × Nat)) : Prop :=
  ∃ b w m body t, Wire.ThreeItems bytes b w m body ∧ TxMeans (.array [b, w, m]) t ∧ Wire.Plain t ∧
    Wire.Rules N pp st t bytes.length body ∧ utxo = LedgerRules.utxoAfter st.utxo (N.bodyHash body) t.body

/-- Unspent outputs after a Babbage transaction with this id. -/
def utxoAfterBabbage (u : TxIn → Option (Bytes × Nat)) (id : Bytes) (b : Babbage.TxBody) : TxIn → Option (Bytes × Nat) := fun i =>
  match (if i.txId = id then b.outputs[i.index]? else none) with
  | some o => some (BabbageRules.addressOf o, BabbageRules.amountOf o)
  | none => if i ∈ b.inputs then none else u i

/-- The network accepts these bytes (`BabbageWire.AcceptsBytes`), and these outputs are unspent afterwards. -/
def LeavesBabbage (N : LedgerRules.Crypto) (pp : BabbageRules.Params) (st : LedgerRules.State) (bytes : Bytes)
    (utxo : TxIn → Option (Bytes × Nat)) : Prop :=
  ∃ b w flag body outs t, BabbageWire.FourItems bytes b w flag body ∧ BabbageTxMeans (.array [b, w, .bool flag, .null]) t ∧
    BabbageWire.OutputBytes body outs ∧ t.body.certificates = [] ∧ BabbageWire.Rules N pp st t bytes.length body outs ∧
    utxo = utxoAfterBabbage st.utxo (N.bodyHash body) t.body

end Cardano.Spec.PayText
