import Verif.Model.Genesis
import Verif.Spec.Json

/-! # The text of a genesis file: `file >> j` (src/byron/genesis.cpp:177-184 and the other eras)

`operator>>` of nlohmann::json reads one JSON value from the stream and leaves the rest unread.  The library is not part
of /repo; its parser is modelled here as a recursive-descent parser on bytes (nlohmann's is iterative, so there is no limit
on the depth; here the fuel is proved to suffice).  Escapes, hexadecimal digits and UTF-8 are those of Spec/Json.  The conversion of a number that is not
a whole number of 64 bits to a double (`strtod`) is a parameter. -/

namespace Cardano.Genesis.JsonText

open Cardano Cardano.Util Cardano.Spec.Json

/-- White space before a token (`lexer::skip_whitespace`). -/
def skipWs : Bytes → Bytes
  | [] => []
  | c :: t => if c = 32 || c = 9 || c = 10 || c = 13 then skipWs t else c :: t

/-- A digit. -/
def digit (c : UInt8) : Bool := 48 ≤ c && c ≤ 57

/-- As many digits as there are. -/
def digits : Bytes → Bytes × Bytes
  | [] => ([], [])
  | c :: t => if digit c then let p := digits t; (c :: p.1, p.2) else ([], c :: t)

/-- The minus sign of a number. -/
def minus : Bytes → Bytes × Bytes
  | [] => ([], [])
  | c :: t => if c = 45 then ([45], t) else ([], c :: t)

/-- The whole part of a number: no leading zeros. -/
def intPart : Bytes → Option (Bytes × Bytes)
  | [] => none
  | c :: t => if c = 48 then some ([48], t) else if digit c then let p := digits t; some (c :: p.1, p.2) else none

/-- At least one digit. -/
def digits1 (x : Bytes) : Option (Bytes × Bytes) :=
  match digits x with
  | ([], _) => none
  | (d :: ds, r) => some (d :: ds, r)

/-- The fraction of a number; a point without digits is an error. -/
def fracPart : Bytes → Option (Bytes × Bytes)
  | [] => some ([], [])
  | c :: t => if c = 46 then (digits1 t).map fun p => (46 :: p.1, p.2) else some ([], c :: t)

/-- The sign of an exponent. -/
def expSign : Bytes → Bytes × Bytes
  | [] => ([], [])
  | c :: t => if c = 43 || c = 45 then ([c], t) else ([], c :: t)

/-- The exponent of a number; an `e` without digits is an error. -/
def expPart : Bytes → Option (Bytes × Bytes)
  | [] => some ([], [])
  | c :: t => if c = 101 || c = 69 then
      let s := expSign t
      (digits1 s.2).map fun p => (c :: (s.1 ++ p.1), p.2)
    else some ([], c :: t)

/-- A number (`lexer::scan_number`) and the rest. -/
def number (x : Bytes) : Option (Bytes × Bytes) := do
  let s := minus x
  let i ← intPart s.2
  let f ← fracPart i.2
  let e ← expPart f.2
  return (s.1 ++ (i.1 ++ (f.1 ++ e.1)), e.2)

/-- Four hexadecimal digits (`lexer::get_codepoint`). -/
def hex4 : Bytes → Option (Nat × Bytes)
  | a :: b :: c :: d :: t => do
    let x ← hexDigit a
    let y ← hexDigit b
    let z ← hexDigit c
    let w ← hexDigit d
    return (((x * 16 + y) * 16 + z) * 16 + w, t)
  | _ => none

/-- The second half of a surrogate pair. -/
def lowHalf : Bytes → Option (Nat × Bytes)
  | b :: u :: t => if b = 92 && u = 117 then
      match hex4 t with
      | some (lo, t) => if 0xDC00 ≤ lo && lo < 0xE000 then some (lo, t) else none
      | none => none
    else none
  | _ => none

/-- An escape after its backslash: the bytes it stands for. -/
def escape : Bytes → Option (Bytes × Bytes)
  | [] => none
  | e :: t =>
    if e = 117 then
      match hex4 t with
      | none => none
      | some (n, t) =>
        if 0xD800 ≤ n && n < 0xDC00 then
          (lowHalf t).map fun p => (utf8Of (0x10000 + (n - 0xD800) * 0x400 + (p.1 - 0xDC00)), p.2)
        else if 0xDC00 ≤ n && n < 0xE000 then none
        else some (utf8Of n, t)
    else (escapes.lookup e).map fun x => ([x], t)

/-- A string after its opening quotation mark (`lexer::scan_string`), and the rest after the closing one.  Whether the
bytes are UTF-8 is checked in `utf8`. -/
def string : Nat → Bytes → Option (Bytes × Bytes)
  | 0, _ => none
  | _ + 1, [] => none
  | n + 1, c :: t =>
    if c = 34 then some ([], t)
    else if c = 92 then
      match escape t with
      | none => none
      | some (s, t) => (string n t).map fun p => (s ++ p.1, p.2)
    else if c < 32 then none
    else (string n t).map fun p => (c :: p.1, p.2)

/-- A literal name. -/
def literal (name : Bytes) (v : Value) (x : Bytes) : Option (Value × Bytes) :=
  if x.take name.length = name then some (v, x.drop name.length) else none

mutual
/-- A value and the rest (`parser::sax_parse_internal`). -/
def value : Nat → Bytes → Option (Value × Bytes)
  | 0, _ => none
  | _ + 1, [] => none
  | n + 1, c :: t =>
    if c = 123 then
      match skipWs t with
      | [] => none
      | d :: r => if d = 125 then some (.obj [], r) else (members n (d :: r)).map fun p => (.obj p.1, p.2)
    else if c = 91 then
      match skipWs t with
      | [] => none
      | d :: r => if d = 93 then some (.arr [], r) else (elems n (d :: r)).map fun p => (.arr p.1, p.2)
    else if c = 34 then (string (t.length + 1) t).map fun p => (.str p.1, p.2)
    else if c = 110 then literal [110, 117, 108, 108] .null (c :: t)
    else if c = 102 then literal [102, 97, 108, 115, 101] (.bool false) (c :: t)
    else if c = 116 then literal [116, 114, 117, 101] (.bool true) (c :: t)
    else (number (c :: t)).map fun p => (.num p.1, p.2)
/-- The elements of an array and its closing bracket. -/
def elems : Nat → Bytes → Option (List Value × Bytes)
  | 0, _ => none
  | n + 1, x =>
    match value n (skipWs x) with
    | none => none
    | some (v, r) =>
      match skipWs r with
      | [] => none
      | c :: r =>
        if c = 93 then some ([v], r)
        else if c = 44 then (elems n r).map fun p => (v :: p.1, p.2)
        else none
/-- The members of an object and its closing brace. -/
def members : Nat → Bytes → Option (List (Bytes × Value) × Bytes)
  | 0, _ => none
  | n + 1, x =>
    match skipWs x with
    | [] => none
    | q :: t =>
      if q = 34 then
        match string (t.length + 1) t with
        | none => none
        | some (k, r) =>
          match skipWs r with
          | [] => none
          | c :: r =>
            if c = 58 then
              match value n (skipWs r) with
              | none => none
              | some (v, r) =>
                match skipWs r with
                | [] => none
                | c :: r =>
                  if c = 125 then some ([(k, v)], r)
                  else if c = 44 then (members n r).map fun p => ((k, v) :: p.1, p.2)
                  else none
            else none
      else none
end

/-- A byte order mark at the beginning is skipped (`lexer::skip_bom`). -/
def skipBom : Bytes → Bytes
  | a :: b :: c :: t => if a = 0xEF && b = 0xBB && c = 0xBF then t else a :: b :: c :: t
  | x => x

/-- `file >> j` as far as the grammar goes: the first value of the stream, what follows is not read. -/
def first (x : Bytes) : Option Value :=
  let y := skipWs (skipBom x)
  (value (2 * y.length + 1) y).map Prod.fst

/-- `std::string` from the bytes of a string: they have to be UTF-8. -/
def utf8 (b : Bytes) : Option String := String.fromUTF8? ⟨b.toArray⟩

/-- The number written by digits. -/
def decimal (b : Bytes) : Nat := b.foldl (fun n c => 10 * n + (c.toNat - 48)) 0

/-- The kind of a number (`lexer::scan_number`): unsigned if there are only digits and they fit, with sign if there is a
minus sign and only digits and they fit, otherwise a double; numbers too large for a double are errors. -/
def numJ (strtod : Bytes → Option Dbl) (t : Bytes) : Option J :=
  if t.all digit then
    if decimal t < 2 ^ 64 then some (.uint (decimal t)) else (strtod t).map .float
  else if t.head? = some 45 && t.tail.all digit then
    if decimal t.tail ≤ 2 ^ 63 then some (.sint (-(decimal t.tail : Int))) else (strtod t).map .float
  else (strtod t).map .float

/-- `object[key] = value`: entries sorted by key, the last value of a key counts. -/
def assign (k : String) (v : J) : List (String × J) → List (String × J)
  | [] => [(k, v)]
  | (k', v') :: l => if k < k' then (k, v) :: (k', v') :: l else if k = k' then (k, v) :: l else (k', v') :: assign k v l

mutual
/-- The tree built for a value (`json_sax_dom_parser`). -/
def tree (strtod : Bytes → Option Dbl) : Value → Option J
  | .null => some .null
  | .bool b => some (.bool b)
  | .num t => numJ strtod t
  | .str s => (utf8 s).map .str
  | .arr l => (treeList strtod l).map .arr
  | .obj m => (treeMembers strtod m []).map .obj
/-- The elements of an array. -/
def treeList (strtod : Bytes → Option Dbl) : List Value → Option (List J)
  | [] => some []
  | v :: l => do
    let j ← tree strtod v
    let js ← treeList strtod l
    return j :: js
/-- The members of an object, one after the other. -/
def treeMembers (strtod : Bytes → Option Dbl) : List (Bytes × Value) → List (String × J) → Option (List (String × J))
  | [], acc => some acc
  | (k, v) :: m, acc => do
    let k ← utf8 k
    let j ← tree strtod v
    treeMembers strtod m (assign k j acc)
end

/-- `GenesisParameters::fromFile` of each era (src/byron/genesis.cpp:174-185, src/shelley/genesis.cpp:140-151,
src/alonzo/genesis.cpp:98-109, src/conway/genesis.cpp:156-167) from the content of the file, none if it cannot be opened. -/
def readFile {α} (strtod : Bytes → Option Dbl) (fromJson : J → Out α) (file : Option Bytes) : Out α :=
  fromFile fromJson (file.map fun x => (first x).bind (tree strtod))

end Cardano.Genesis.JsonText
