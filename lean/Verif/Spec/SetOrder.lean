import Verif.Spec.LedgerMeaning

/-! # The order of sets and maps in the bytes of a transaction

Written without the model's own comparison functions. -/

namespace Cardano.Spec.SetOrder

open Cardano Cardano.Cbor Cardano.Spec.Ledger

/-- `a` comes before `b` in the dictionary order of byte strings: `b` continues `a`, or at the first byte where they
differ the byte of `a`, as an unsigned number, is smaller. -/
def Before (a b : Bytes) : Prop :=
  (∃ x s, b = a ++ x :: s) ∨ ∃ p x y s t, a = p ++ x :: s ∧ b = p ++ y :: t ∧ x.toNat < y.toNat

/-- Inputs, as pairs of transaction id and index, are ordered by id first and index second. -/
def InputBefore (a b : Bytes × Nat) : Prop := Before a.1 b.1 ∨ (a.1 = b.1 ∧ a.2 < b.2)

/-- `transaction_input = [transaction_id, index]`. -/
def inputItem (x : Bytes × Nat) : Item := .array [.bstr x.1, .uint x.2]

/-- The body lists exactly these inputs (key 0) and exactly these withdrawals (key 5, absent if there are none), each in
strictly increasing order: nothing is listed twice. -/
def Lists (body : Item) (inputs : List (Bytes × Nat)) (withdrawals : List (Bytes × Nat)) : Prop :=
  ∃ ps : List (Nat × Item), body = .map (flat .uint id ps) ∧ (ps.map (·.1)).Nodup ∧
    (0, .array (inputs.map inputItem)) ∈ ps ∧ inputs.Pairwise InputBefore ∧
    At ps 5 (withdrawals = []) (fun v => v = .map (flat .bstr .uint withdrawals)) ∧
    (withdrawals.map (·.1)).Pairwise Before

end Cardano.Spec.SetOrder
