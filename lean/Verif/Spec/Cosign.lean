import Verif.Spec.Wire

/-! # Several wallets sign one transaction -/

namespace Cardano.Spec.Cosign

open Cardano Cardano.Ledger Cardano.TxBuilder

/-- The bytes of a transaction, if it can be serialized. -/
def bytesOf (t : Tx) : Option Bytes :=
  match t.serialize with
  | .ok s => some s
  | _ => none

/-- What a wallet does with a transaction that another one sends it: load the bytes with `fromCBOR`, sign with its keys, and send the bytes on. -/
def passOn (E : Env) (k : Nat) (bytes : Bytes) (keys : List SKey) : Option Bytes :=
  match fromCBOR bytes with
  | .ok b => (run E k b (keys.map .sign)).bind fun b' => bytesOf b'.tx
  | _ => none

/-- The calls of a history that register a pool. -/
def NoPool (ops : List Op) : Prop := ∀ p d, Op.poolRegistration p d ∉ ops

end Cardano.Spec.Cosign
