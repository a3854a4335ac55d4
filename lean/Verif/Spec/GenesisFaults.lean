import Verif.Spec.Genesis

/-! # Which genesis documents can be read

For every shape: the documents from which the value can be read, and those for which reading converts a number that does not fit
its type (undefined behaviour in C++).  Only the document is mentioned, not the configuration read from it. -/

namespace Cardano.Genesis

open Cardano Cardano.Util

/-- The fraction `±m / 2^e`, without its fractional part, lies in `0 … 2^w - 1`. -/
def FitsU (w : Nat) : Dbl → Prop
  | .fin neg m e => m < 2 ^ e ∨ (neg = false ∧ m < 2 ^ w * 2 ^ e)
  | _ => False

/-- The fraction `±m / 2^e`, without its fractional part, lies in `-2^63 … 2^63 - 1`. -/
def FitsI : Dbl → Prop
  | .fin neg m e => if neg then m < (2 ^ 63 + 1) * 2 ^ e else m < 2 ^ 63 * 2 ^ e
  | _ => False

mutual
/-- The document can be read: keys are there, kinds are right, fractions fit; whole numbers always do (they wrap around), and so do
booleans where the type is narrower than 64 bits. -/
def Readable : Schema → J → Prop
  | .uint w, a => (∃ z, a.whole = some z) ∨ (w ≠ 64 ∧ ∃ b, a = .bool b) ∨ (∃ d, a = .float d ∧ FitsU w d)
  | .int64, a => (∃ z, a.whole = some z) ∨ (∃ d, a = .float d ∧ FitsI d)
  | .num, a => (∃ z, a.whole = some z) ∨ (∃ d, a = .float d)
  | .str, a => ∃ s, a = .str s
  | .map s, a => ∃ l, a = .obj l ∧ ∀ p ∈ l, Readable s p.2
  | .arr n s, a => ∃ l, a = .arr l ∧ n ≤ l.length ∧ ∀ x ∈ l.take n, Readable s x
  | .obj fs, a => ReadableFields fs a
/-- All these keys are there and their values can be read. -/
def ReadableFields : List (String × Schema) → J → Prop
  | [], _ => True
  | (k, s) :: fs, a => (∃ x, a.get? k = some x ∧ Readable s x) ∧ ReadableFields fs a
end

mutual
/-- Reading, in the order of the shape, meets a fraction that does not fit its type before anything it refuses. -/
def Fatal : Schema → J → Prop
  | .uint w, a => ∃ d, a = .float d ∧ ¬ FitsU w d
  | .int64, a => ∃ d, a = .float d ∧ ¬ FitsI d
  | .num, _ => False
  | .str, _ => False
  | .map s, a => ∃ pre p post, a = .obj (pre ++ p :: post) ∧ (∀ q ∈ pre, Readable s q.2) ∧ Fatal s p.2
  | .arr n s, a => ∃ pre x post, a = .arr (pre ++ x :: post) ∧ pre.length < n ∧ (∀ q ∈ pre, Readable s q) ∧ Fatal s x
  | .obj fs, a => FatalFields fs a
/-- One of these keys is fatal and the ones before it can be read. -/
def FatalFields : List (String × Schema) → J → Prop
  | [], _ => False
  | (k, s) :: fs, a => (∃ x, a.get? k = some x ∧ Fatal s x) ∨ ((∃ x, a.get? k = some x ∧ Readable s x) ∧ FatalFields fs a)
end

/-- What is read of a Shelley file, in order: the security parameter twice, the slot length never. -/
def Shelley.orderS : Schema :=
  .obj [("activeSlotsCoeff", .num), ("protocolParams", Shelley.protocolParametersS), ("genDelegs", .map Shelley.genDelegS),
    ("updateQuorum", .uint 64), ("networkId", .str), ("maxLovelaceSupply", .uint 64), ("networkMagic", .uint 64),
    ("epochLength", .uint 64), ("systemStart", .str), ("slotsPerKESPeriod", .uint 64), ("securityParam", .uint 64),
    ("maxKESEvolutions", .uint 64), ("securityParam", .uint 64)]

end Cardano.Genesis
