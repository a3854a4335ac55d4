import Verif.Model.Cbor

/-! # CBOR, from RFC 8949

Which byte strings encode which items, for the part of the format that the library's CBOR parser knows: definite lengths, negative
integers of at least -2^63, booleans and null.  A relation, not a parser. -/

namespace Cardano.Spec.Rfc8949

open Cardano Cardano.Cbor

/-- Section 3: the head of an item.  Major type in the upper three bits of the first byte; the argument is below 24 in the lower
five bits, or follows in 1, 2, 4 or 8 bytes, big-endian.  Longer than necessary is allowed. -/
inductive Head (major n : Nat) : Bytes → Prop
  | short {c : UInt8} : n < 24 → c.toNat = 32 * major + n → Head major n [c]
  | long {c : UInt8} {arg : Bytes} {k : Nat} : k ≤ 3 → c.toNat = 32 * major + 24 + k → arg.length = 2 ^ k → beNat arg = n →
      Head major n (c :: arg)

/-- Section 3.1: the major types.  The bytes of the elements of an array, or of the keys and values of a map, follow the head
one after the other. -/
inductive Encodes : Item → Bytes → Prop
  | uint {n h} : Head 0 n h → Encodes (.uint n) h
  | nint {n h} : n < 2 ^ 63 → Head 1 n h → Encodes (.nint n) h
  | bstr {b h : Bytes} : Head 2 b.length h → Encodes (.bstr b) (h ++ b)
  | tstr {b h : Bytes} : Head 3 b.length h → Encodes (.tstr b) (h ++ b)
  | array {ps : List (Item × Bytes)} {h : Bytes} : Head 4 ps.length h → (∀ p ∈ ps, Encodes p.1 p.2) →
      Encodes (.array (ps.map (·.1))) (h ++ (ps.map (·.2)).flatten)
  | map {ps : List (Item × Bytes)} {n : Nat} {h : Bytes} : ps.length = 2 * n → Head 5 n h → (∀ p ∈ ps, Encodes p.1 p.2) →
      Encodes (.map (ps.map (·.1))) (h ++ (ps.map (·.2)).flatten)
  | tag {n : Nat} {i : Item} {h b : Bytes} : Head 6 n h → Encodes i b → Encodes (.tag n i) (h ++ b)
  | false : Encodes (.bool false) [0xF4]
  | true : Encodes (.bool true) [0xF5]
  | null : Encodes .null [0xF6]

end Cardano.Spec.Rfc8949
