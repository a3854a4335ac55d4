import Verif.Model.Basic

namespace Cardano.Hex

/-- One lower-case hexadecimal digit, as printed by `std::hex`.
src/encodings.cpp:40-48 (stream formatting). -/
def digitChar (n : Nat) : UInt8 :=
  if n < 10 then UInt8.ofNat (48 + n) else UInt8.ofNat (87 + n)

/-- `ss << setw(2)` with fill `'0'`: two digits per byte.
src/encodings.cpp:45-46. -/
def byteChars (b : UInt8) : Bytes := [digitChar (b.toNat / 16), digitChar (b.toNat % 16)]

/-- `bytes2hex` / `BASE16::encode`. src/encodings.cpp:40-48, 79-82. -/
def encode : Bytes → Bytes
  | [] => []
  | b :: bs => byteChars b ++ encode bs

/-- Membership in the character set of `find_first_not_of`
`"0123456789abcdefABCDEF"`. src/encodings.cpp:56. -/
def isHexChar (c : UInt8) : Bool :=
  (48 ≤ c && c ≤ 57) || (97 ≤ c && c ≤ 102) || (65 ≤ c && c ≤ 70)

/-- Value of one digit as read by `std::from_chars(..., 16)`; `none` if it is
not a hexadecimal digit. src/encodings.cpp:65. -/
def digitVal (c : UInt8) : Option Nat :=
  if 48 ≤ c ∧ c ≤ 57 then some (c.toNat - 48)
  else if 97 ≤ c ∧ c ≤ 102 then some (c.toNat - 87)
  else if 65 ≤ c ∧ c ≤ 70 then some (c.toNat - 55)
  else none

/-- The loop of `hex2bytes`: two characters per step, `from_chars` parses the
pair (throws when it does not start with a digit; stops at the first
non-digit). src/encodings.cpp:63-69.  On an odd rest the C++ would read one
character beyond; the guard in `decode` excludes it, here it is `ub`. -/
def pairs : Bytes → Out Bytes
  | [] => .ok []
  | [_] => .ub
  | a :: b :: rest =>
    match digitVal a with
    | none => .throw .invalidArgument
    | some x =>
      let v := match digitVal b with
        | none => x
        | some y => 16 * x + y
      (pairs rest).bind (fun bs => .ok (UInt8.ofNat v :: bs))

/-- `hex2bytes` / `BASE16::decode`. src/encodings.cpp:50-71, 84-87. -/
def decode (s : Bytes) : Out Bytes :=
  if s.length % 2 ≠ 0 then .throw .invalidArgument
  else if s.any (fun c => !isHexChar c) then .throw .invalidArgument
  else pairs s

end Cardano.Hex
