import Verif.Model.Genesis
import Verif.Model.Hex
import Verif.Model.TxBuilder
import Verif.Model.StakePool

/-! # Model of `UTxO::fromJSON` and `ProtocolVersion::isValid` -/

namespace Cardano.TxBuilder

open Genesis

/-- The bytes of a JSON string. -/
def utf8 (s : String) : Bytes := s.toUTF8.data.toList

/-- `const json::operator[](key)`: for an object the key must be present (otherwise the behaviour
is undefined; an assertion in debug builds), anything else throws. -/
def jIndex (j : J) (k : String) : Out J :=
  match j with
  | .obj l => match l.lookup k with
    | some v => .ok v
    | none => .ub
  | _ => .throw .other

/-- `UTxO::fromJSON` (src/shelley/transaction.cpp:40-46). -/
def UTxO.fromJSON (j : J) : Out UTxO := do
  let t ← jIndex j "transaction"
  let t ← jIndex t "id"
  let s ← getStr t
  let id ← Hex.decode (utf8 s)
  let i ← jIndex j "index"
  let index ← getU64 i
  let v ← jIndex j "value"
  let v ← jIndex v "ada"
  let v ← jIndex v "lovelace"
  let value ← getU64 v
  let id ← Pool.makeByteArray 32 id
  return ⟨id, index, value⟩

/-- The order of UTxOs in a `std::set` (transaction.hpp:99-103): transaction id, then index. -/
def UTxO.lt (a b : UTxO) : Bool := decide (a.id < b.id) || (decide (a.id = b.id) && decide (a.index < b.index))

/-- `operator==` (transaction.hpp:105-108). -/
def UTxO.eq (a b : UTxO) : Bool := decide (a.id = b.id) && decide (a.index = b.index)

/-- `shelley::ProtocolVersion::isValid` (ledger.hpp:500-510). -/
def shelleyVersionValid (major : Nat) : Bool := decide (major > 0) && decide (major ≤ 3)

/-- `mary::ProtocolVersion::isValid` (ledger.hpp:1189-1200). -/
def maryVersionValid (major : Nat) : Bool := decide (major > 0) && decide (major ≤ 5)

end Cardano.TxBuilder
