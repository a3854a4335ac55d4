import Verif.Model.Util
import Verif.Spec.Util

/-! # Model of the CBOR layer

The library serialises through the third-party library libcppbor (not in /repo).  This
file models the part of it that /repo uses, from RFC 8949 and the cppbor interface:
trees of items, the canonical (shortest-header) encoder, the parser, and the `as…`
accessors, which return a null pointer on the wrong type and look through tags.
Indefinite lengths, floats and simple values other than bool/null are not supported by
the parser (it reports an error), as in cppbor. -/

namespace Cardano.Cbor

/-- `cppbor::Item`.  A map holds its keys and values alternately. -/
inductive Item where
  | uint (n : Nat)
  | nint (n : Nat)          -- the integer -1 - n
  | bstr (b : Bytes)
  | tstr (b : Bytes)
  | array (l : List Item)
  | map (kvs : List Item)
  | tag (n : Nat) (i : Item)
  | bool (b : Bool)
  | null
  deriving Repr, Inhabited

/-- Initial byte and argument of an item: shortest form (RFC 8949, 3 and 4.2.1;
`cppbor::encodeHeader`). -/
def encHeader (major n : Nat) : Bytes :=
  if n < 24 then [UInt8.ofNat (major * 32 + n)]
  else if n < 2 ^ 8 then UInt8.ofNat (major * 32 + 24) :: Util.packBE 1 n
  else if n < 2 ^ 16 then UInt8.ofNat (major * 32 + 25) :: Util.packBE 2 n
  else if n < 2 ^ 32 then UInt8.ofNat (major * 32 + 26) :: Util.packBE 4 n
  else UInt8.ofNat (major * 32 + 27) :: Util.packBE 8 n

mutual
/-- `Item::encode()`. -/
def enc : Item → Bytes
  | .uint n => encHeader 0 n
  | .nint n => encHeader 1 n
  | .bstr b => encHeader 2 b.length ++ b
  | .tstr b => encHeader 3 b.length ++ b
  | .array l => encHeader 4 l.length ++ encList l
  | .map kvs => encHeader 5 (kvs.length / 2) ++ encList kvs
  | .tag n i => encHeader 6 n ++ enc i
  | .bool false => [0xF4]
  | .bool true => [0xF5]
  | .null => [0xF6]
/-- The elements of an array or map one after the other. -/
def encList : List Item → Bytes
  | [] => []
  | i :: l => enc i ++ encList l
end

/-- `n` bytes from the front, if there are that many. -/
def takeN (n : Nat) (b : Bytes) : Option (Bytes × Bytes) :=
  if n ≤ b.length then some (b.take n, b.drop n) else none

/-- Header parser (`cppbor::parse`): major type, argument, rest.  Longer-than-necessary
arguments are accepted; additional information 28–31 is an error. -/
def parseHeader : Bytes → Option (Nat × Nat × Nat × Bytes)
  | [] => none
  | b :: rest =>
    let major := b.toNat / 32
    let info := b.toNat % 32
    if info < 24 then some (major, info, info, rest)
    else if info ≤ 27 then
      (takeN (2 ^ (info - 24)) rest).map fun (a, r) => (major, info, beNat a, r)
    else none

mutual
/-- `cppbor::parse`; the first argument bounds the recursion.  Negative integers that do not
fit in an `int64_t` are an error, as in cppbor. -/
def parseF : Nat → Bytes → Option (Item × Bytes)
  | 0, _ => none
  | f + 1, b =>
    match parseHeader b with
    | none => none
    | some (major, info, n, rest) =>
      match major with
      | 0 => some (.uint n, rest)
      | 1 => if n < 2 ^ 63 then some (.nint n, rest) else none
      | 2 => (takeN n rest).map fun (a, r) => (.bstr a, r)
      | 3 => (takeN n rest).map fun (a, r) => (.tstr a, r)
      | 4 => (parseList f n rest).map fun (l, r) => (.array l, r)
      | 5 => (parseList f (2 * n) rest).map fun (l, r) => (.map l, r)
      | 6 => (parseF f rest).map fun (i, r) => (.tag n i, r)
      | _ =>
        if info = 20 then some (.bool false, rest)
        else if info = 21 then some (.bool true, rest)
        else if info = 22 then some (.null, rest)
        else none
/-- `n` items in a row. -/
def parseList : Nat → Nat → Bytes → Option (List Item × Bytes)
  | _, 0, b => some ([], b)
  | 0, _ + 1, _ => none
  | f + 1, n + 1, b =>
    match parseF f b with
    | none => none
    | some (i, r) => (parseList f n r).map fun (l, r') => (i :: l, r')
end

/-- `cppbor::parse(bytes)`: the first item; trailing bytes are ignored by the callers. -/
def parse (b : Bytes) : Option Item := (parseF (2 * b.length + 1) b).map (·.1)

/-- Items that the C++ item classes can hold: 64-bit arguments and lengths (negative
integers are `int64_t`), maps with as many values as keys. -/
inductive WF : Item → Prop
  | uint {n} : n < 2 ^ 64 → WF (.uint n)
  | nint {n} : n < 2 ^ 63 → WF (.nint n)
  | bstr {b : Bytes} : b.length < 2 ^ 64 → WF (.bstr b)
  | tstr {b : Bytes} : b.length < 2 ^ 64 → WF (.tstr b)
  | array {l : List Item} : l.length < 2 ^ 64 → (∀ i ∈ l, WF i) → WF (.array l)
  | map {l : List Item} : l.length < 2 ^ 64 → l.length % 2 = 0 → (∀ i ∈ l, WF i) → WF (.map l)
  | tag {n i} : n < 2 ^ 64 → WF i → WF (.tag n i)
  | bool {b} : WF (.bool b)
  | null : WF .null

/-! ## Accessors -/

/-- Accessors of a tagged item are those of its content. -/
def untag : Item → Item
  | .tag _ i => untag i
  | i => i

/-- `asUint()->unsignedValue()` guard: the value if it is an unsigned integer. -/
def asUint (i : Item) : Option Nat := match untag i with | .uint n => some n | _ => none
/-- `asInt()->value()`. -/
def asInt (i : Item) : Option Int :=
  match untag i with | .uint n => some n | .nint n => some (-1 - (n : Int)) | _ => none
/-- `asBstr()->value()`. -/
def asBstr (i : Item) : Option Bytes := match untag i with | .bstr b => some b | _ => none
/-- `asTstr()->value()`. -/
def asTstr (i : Item) : Option Bytes := match untag i with | .tstr b => some b | _ => none
/-- `asArray()`. -/
def asArray (i : Item) : Option (List Item) := match untag i with | .array l => some l | _ => none
/-- `asMap()`. -/
def asMap (i : Item) : Option (List Item) := match untag i with | .map l => some l | _ => none
/-- `asSimple()->asBool()->value()`. -/
def asBool (i : Item) : Option Bool := match untag i with | .bool b => some b | _ => none
/-- `asNull()`. -/
def isNull (i : Item) : Bool := match untag i with | .null => true | _ => false

/-- Dereference of a pointer that may be null: undefined behaviour if it is. -/
def deref {α} : Option α → Out α
  | some a => .ok a
  | none => .ub

/-- `Array::get(i)`: no bounds check. -/
def get (l : List Item) (i : Nat) : Out Item := deref l[i]?

/-- `Map::get(key)` for a small unsigned key: the value of the first entry whose key is
that integer, or null. -/
def lookup (key : Nat) : List Item → Option Item
  | k :: v :: rest => match k with
    | .uint n => if n = key then some v else lookup key rest
    | _ => lookup key rest
  | _ => none

end Cardano.Cbor
