import Verif.Spec.LedgerFaults
import Verif.Spec.Rfc8949

/-! # Which bytes are read as a Byron address, and which make the library leave defined behaviour

The shapes are told on CBOR items (RFC 8949), seen without their tags, and without reference to the reader.  `crc` stands for
the CRC-32 of the payload. -/

namespace Cardano.Spec.ByronFaults

open Cardano Cardano.Cbor Cardano.Spec.LedgerFaults Cardano.Spec.Rfc8949

/-- The bytes begin with (an encoding of) the item; what follows is ignored. -/
def Begins (b : Bytes) (i : Item) : Prop := ∃ p rest, b = p ++ rest ∧ Encodes i p

/-- `[bytes, number, …]`. -/
def Envelope (i : Item) (payload : Bytes) (check : Nat) : Prop :=
  ∃ p c more, bare i = .array (p :: c :: more) ∧ bare p = .bstr payload ∧ bare c = .uint check

/-- `[root of at most 28 bytes, map, type, …]`. -/
def Head (j : Item) (attrs : List Item) (type : Item) : Prop :=
  ∃ r m more root, bare j = .array (r :: m :: type :: more) ∧ bare r = .bstr root ∧ root.length ≤ 28 ∧ bare m = .map attrs

/-- If the attribute is there, it is a byte string that begins with an item of the kind `good`. -/
def AttrGood (good : Item → Prop) (k : Nat) (attrs : List Item) : Prop :=
  ∀ v, valueAt k attrs = some v → ∃ b i, bare v = .bstr b ∧ Begins b i ∧ good i

/-- The attribute is no byte string, or one that begins with an item of another kind. -/
def AttrFatal (good : Item → Prop) (k : Nat) (attrs : List Item) : Prop :=
  ∃ v, valueAt k attrs = some v ∧ (¬ IsBytes v ∨ ∃ b i, bare v = .bstr b ∧ Begins b i ∧ ¬ good i)

/-- A payload that is read: the encrypted path is bytes, the protocol magic a number, the type 0, 1 or 2. -/
def PayloadGood (j : Item) : Prop :=
  ∃ attrs type n, Head j attrs type ∧ AttrGood IsBytes 1 attrs ∧ AttrGood IsUint 2 attrs ∧ bare type = .uint n ∧ n ≤ 2

/-- A payload of another shape, looked at from left to right. -/
def PayloadFatal (j : Item) : Prop :=
  (¬ ∃ attrs type, Head j attrs type) ∨ ∃ attrs type, Head j attrs type ∧
    (AttrFatal IsBytes 1 attrs ∨ AttrGood IsBytes 1 attrs ∧ (AttrFatal IsUint 2 attrs ∨ AttrGood IsUint 2 attrs ∧ ¬ IsUint type))

def AddressGood (crc : Bytes → Nat) (b : Bytes) : Prop :=
  ∃ i payload check j, Begins b i ∧ Envelope i payload check ∧ crc payload = check % 2 ^ 32 ∧ Begins payload j ∧ PayloadGood j

def AddressFatal (crc : Bytes → Nat) (b : Bytes) : Prop :=
  ∃ i, Begins b i ∧ ((¬ ∃ payload check, Envelope i payload check) ∨
    ∃ payload check j, Envelope i payload check ∧ crc payload = check % 2 ^ 32 ∧ Begins payload j ∧ PayloadFatal j)

end Cardano.Spec.ByronFaults
