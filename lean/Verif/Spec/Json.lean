import Verif.Model.Basic

/-! # JSON texts (RFC 8259), on bytes

Written from the grammar of the RFC.  Strings are given by their UTF-8 bytes: an unescaped character is its own
bytes, an escape stands for the UTF-8 bytes of its character.  That the whole text is UTF-8 (RFC 8259, 8.1) is not part
of the relation; the files of the library are ASCII. -/

namespace Cardano.Spec.Json

/-- A JSON value; a number is kept as written, the members of an object are in their order. -/
inductive Value where
  | null
  | bool (b : Bool)
  | num (text : Bytes)
  | str (s : Bytes)
  | arr (l : List Value)
  | obj (m : List (Bytes × Value))

/-- `ws`: space, tab, line feed, carriage return. -/
def IsWs (c : UInt8) : Prop := c = 32 ∨ c = 9 ∨ c = 10 ∨ c = 13

/-- Any number of white space characters. -/
def Ws (b : Bytes) : Prop := ∀ c ∈ b, IsWs c

/-- `DIGIT`. -/
def IsDigit (c : UInt8) : Prop := 48 ≤ c ∧ c ≤ 57

/-- `number = [ minus ] int [ frac ] [ exp ]`. -/
def Num (b : Bytes) : Prop := ∃ sign int frac exp, b = sign ++ (int ++ (frac ++ exp)) ∧
  (sign = [] ∨ sign = [45]) ∧
  (int = [48] ∨ ∃ d ds, int = d :: ds ∧ IsDigit d ∧ d ≠ 48 ∧ ∀ c ∈ ds, IsDigit c) ∧
  (frac = [] ∨ ∃ d ds, frac = 46 :: d :: ds ∧ ∀ c ∈ d :: ds, IsDigit c) ∧
  (exp = [] ∨ ∃ e sg d ds, exp = e :: (sg ++ d :: ds) ∧ (e = 101 ∨ e = 69) ∧ (sg = [] ∨ sg = [43] ∨ sg = [45]) ∧ ∀ c ∈ d :: ds, IsDigit c)

/-- The value of a hexadecimal digit. -/
def hexDigit (c : UInt8) : Option Nat :=
  if 48 ≤ c ∧ c ≤ 57 then some (c.toNat - 48)
  else if 65 ≤ c ∧ c ≤ 70 then some (c.toNat - 55)
  else if 97 ≤ c ∧ c ≤ 102 then some (c.toNat - 87)
  else none

/-- `4HEXDIG` and the number it stands for. -/
def Hex4 (h : Bytes) (n : Nat) : Prop := ∃ a b c d x y z w, h = [a, b, c, d] ∧ hexDigit a = some x ∧ hexDigit b = some y ∧
  hexDigit c = some z ∧ hexDigit d = some w ∧ n = ((x * 16 + y) * 16 + z) * 16 + w

/-- UTF-8 (RFC 3629). -/
def utf8Of (n : Nat) : Bytes :=
  if n < 0x80 then [UInt8.ofNat n]
  else if n < 0x800 then [UInt8.ofNat (0xC0 + n / 64), UInt8.ofNat (0x80 + n % 64)]
  else if n < 0x10000 then [UInt8.ofNat (0xE0 + n / 4096), UInt8.ofNat (0x80 + n / 64 % 64), UInt8.ofNat (0x80 + n % 64)]
  else [UInt8.ofNat (0xF0 + n / 262144), UInt8.ofNat (0x80 + n / 4096 % 64), UInt8.ofNat (0x80 + n / 64 % 64), UInt8.ofNat (0x80 + n % 64)]

/-- The two-character escapes: the character after the backslash and the one meant. -/
def escapes : List (UInt8 × UInt8) := [(34, 34), (92, 92), (47, 47), (98, 8), (102, 12), (110, 10), (114, 13), (116, 9)]

/-- An unescaped character may be anything but a quotation mark, a backslash and the control characters. -/
def IsPlain (c : UInt8) : Prop := 32 ≤ c ∧ c ≠ 34 ∧ c ≠ 92

/-- What stands between the quotation marks, and the string it means. -/
inductive Str : Bytes → Bytes → Prop
  | nil : Str [] []
  | plain {c t s} : IsPlain c → Str t s → Str (c :: t) (c :: s)
  | esc {e x t s} : (e, x) ∈ escapes → Str t s → Str (92 :: e :: t) (x :: s)
  | unicode {h n t s} : Hex4 h n → n < 0xD800 ∨ 0xDFFF < n → Str t s → Str (92 :: 117 :: (h ++ t)) (utf8Of n ++ s)
  | pair {h l hi lo t s} : Hex4 h hi → Hex4 l lo → 0xD800 ≤ hi → hi < 0xDC00 → 0xDC00 ≤ lo → lo < 0xE000 → Str t s →
      Str (92 :: 117 :: (h ++ 92 :: 117 :: (l ++ t))) (utf8Of (0x10000 + (hi - 0xD800) * 0x400 + (lo - 0xDC00)) ++ s)

mutual
/-- `value`. -/
inductive Val : Bytes → Value → Prop
  | null : Val [110, 117, 108, 108] .null
  | false : Val [102, 97, 108, 115, 101] (.bool false)
  | true : Val [116, 114, 117, 101] (.bool true)
  | num {b} : Num b → Val b (.num b)
  | str {k s} : Str k s → Val (34 :: (k ++ [34])) (.str s)
  | noElems {w} : Ws w → Val (91 :: (w ++ [93])) (.arr [])
  | arr {b l} : Elems b l → Val (91 :: (b ++ [93])) (.arr l)
  | noMembers {w} : Ws w → Val (123 :: (w ++ [125])) (.obj [])
  | obj {b m} : Members b m → Val (123 :: (b ++ [125])) (.obj m)
/-- The elements of an array. -/
inductive Elems : Bytes → List Value → Prop
  | one {a v d val} : Ws a → Val v val → Ws d → Elems (a ++ (v ++ d)) [val]
  | cons {a v d val b l} : Ws a → Val v val → Ws d → Elems b l → Elems (a ++ (v ++ (d ++ 44 :: b))) (val :: l)
/-- The members of an object. -/
inductive Members : Bytes → List (Bytes × Value) → Prop
  | one {a k key b c v val d} : Ws a → Str k key → Ws b → Ws c → Val v val → Ws d →
      Members (a ++ 34 :: (k ++ 34 :: (b ++ 58 :: (c ++ (v ++ d))))) [(key, val)]
  | cons {a k key b c v val d r m} : Ws a → Str k key → Ws b → Ws c → Val v val → Ws d → Members r m →
      Members (a ++ 34 :: (k ++ 34 :: (b ++ 58 :: (c ++ (v ++ (d ++ 44 :: r)))))) ((key, val) :: m)
end

/-- `JSON-text = ws value ws`. -/
def Text (b : Bytes) (val : Value) : Prop := ∃ a v z, b = a ++ (v ++ z) ∧ Ws a ∧ Ws z ∧ Val v val

/-- The object of a text envelope of the node: its three members. -/
def envelope (type description cborHex : Bytes) : Value :=
  .obj [(ascii "type", .str type), (ascii "description", .str description), (ascii "cborHex", .str cborHex)]

/-- A string whose characters need no escape. -/
def Plain (s : Bytes) : Prop := ∀ c ∈ s, IsPlain c

end Cardano.Spec.Json
