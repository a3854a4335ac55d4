import Verif.Model.Basic
import Verif.Model.Hex

/-
Bech32, src/encodings.cpp:89-348.

Five-bit symbols and the intermediate `uint8_t` vectors are `List Nat` here; every
value stored is below 256 (`& maxv`, `>> 5`, `& 0x1f`), so the narrowing casts of
the C++ are the identity.  `uint32_t c` in `polymod` and `int acc` in
`convertbits` never exceed 30 resp. 21 bits, so `Nat` arithmetic is exact.
-/

namespace Cardano.Bech32

/-- `B32_CHARSET`. src/encodings.cpp:94-95. -/
def charset : Bytes := ascii "qpzry9x8gf2tvdw0s3jn54khce6mua7l"

/-- `B32_CHARSET_REV[128]`. src/encodings.cpp:98-106. -/
def charsetRev : List Int := [
    -1, -1, -1, -1, -1, -1, -1, -1, -1, -1, -1, -1, -1, -1, -1, -1, -1, -1, -1,
    -1, -1, -1, -1, -1, -1, -1, -1, -1, -1, -1, -1, -1, -1, -1, -1, -1, -1, -1,
    -1, -1, -1, -1, -1, -1, -1, -1, -1, -1, 15, -1, 10, 17, 21, 20, 26, 30, 7,
    5,  -1, -1, -1, -1, -1, -1, -1, 29, -1, 24, 13, 25, 9,  8,  23, -1, 18, 22,
    31, 27, 19, -1, 1,  0,  3,  16, 11, 28, 12, 14, 6,  4,  2,  -1, -1, -1, -1,
    -1, -1, 29, -1, 24, 13, 25, 9,  8,  23, -1, 18, 22, 31, 27, 19, -1, 1,  0,
    3,  16, 11, 28, 12, 14, 6,  4,  2,  -1, -1, -1, -1, -1 ]

/-- One iteration of the loop of `polymod`. src/encodings.cpp:161-183:
`c0 = (uint8_t)(c >> 25)`, `c = ((c & 0x1ffffff) << 5) ^ v_i`, then five
conditional xors. -/
def polymodStep (c v : Nat) : Nat :=
  let c0 := (c >>> 25) % 256
  let c := ((c &&& 0x1ffffff) <<< 5) ^^^ v
  let c := if c0 &&& 1 ≠ 0 then c ^^^ 0x3b6a57b2 else c
  let c := if c0 &&& 2 ≠ 0 then c ^^^ 0x26508e6d else c
  let c := if c0 &&& 4 ≠ 0 then c ^^^ 0x1ea119fa else c
  let c := if c0 &&& 8 ≠ 0 then c ^^^ 0x3d4233dd else c
  let c := if c0 &&& 16 ≠ 0 then c ^^^ 0x2a1462b3 else c
  c

/-- `polymod`: start from 1 and fold. src/encodings.cpp:111-185. -/
def polymod (values : List Nat) : Nat := values.foldl polymodStep 1

/-- `expand_hrp`: the high three bits of every character, a zero, the low five
bits of every character. src/encodings.cpp:188-201. -/
def expandHrp (hrp : Bytes) : List Nat :=
  hrp.map (fun c => c.toNat >>> 5) ++ [0] ++ hrp.map (fun c => c.toNat &&& 0x1f)

/-- `verify_checksum`. src/encodings.cpp:204-214. -/
def verifyChecksum (hrp : Bytes) (values : List Nat) : Bool :=
  polymod (expandHrp hrp ++ values) == 1

/-- `create_checksum`. src/encodings.cpp:216-230. -/
def createChecksum (hrp : Bytes) (values : List Nat) : List Nat :=
  let m := polymod (expandHrp hrp ++ values ++ [0, 0, 0, 0, 0, 0]) ^^^ 1
  [0, 1, 2, 3, 4, 5].map (fun i => (m >>> (5 * (5 - i))) &&& 31)

/-- The inner `while (bits >= tobits)` loop of `convertbits`; `fuel` is an upper
bound on the number of iterations (`bits` itself, since `tobits > 0`).
src/encodings.cpp:249-253.  Returns the remaining `bits` and the pushed groups. -/
def drain (tobits acc : Nat) : (fuel bits : Nat) → Nat × List Nat
  | 0, bits => (bits, [])
  | fuel + 1, bits =>
    if bits ≥ tobits then
      let bits' := bits - tobits
      let g := (acc >>> bits') &&& (2 ^ tobits - 1)
      let r := drain tobits acc fuel bits'
      (r.1, g :: r.2)
    else (bits, [])

/-- The `for` loop of `convertbits`. src/encodings.cpp:244-254.
Returns final `acc`, `bits` and the pushed groups. -/
def convLoop (frombits tobits : Nat) : (acc bits : Nat) → List Nat → Out (Nat × Nat × List Nat)
  | acc, bits, [] => .ok (acc, bits, [])
  | acc, bits, v :: vs =>
    if v >>> frombits ≠ 0 then .throw .invalidArgument
    else
      let acc := ((acc <<< frombits) ||| v) &&& (2 ^ (frombits + tobits - 1) - 1)
      let d := drain tobits acc (bits + frombits) (bits + frombits)
      (convLoop frombits tobits acc d.1 vs).bind (fun r => .ok (r.1, r.2.1, d.2 ++ r.2.2))

/-- `convertbits`. src/encodings.cpp:232-268. -/
def convertbits (data : List Nat) (frombits tobits : Nat) (pad : Bool) : Out (List Nat) :=
  (convLoop frombits tobits 0 0 data).bind fun r =>
    let acc := r.1
    let bits := r.2.1
    if pad then
      if bits ≠ 0 then .ok (r.2.2 ++ [(acc <<< (tobits - bits)) &&& (2 ^ tobits - 1)])
      else .ok r.2.2
    else if bits ≥ frombits ∨ ((acc <<< (tobits - bits)) &&& (2 ^ tobits - 1)) ≠ 0 then
      .throw .invalidArgument
    else .ok r.2.2

/-- `!(c < 'A' || c > 'Z')`. src/encodings.cpp:276-277. -/
def isUpper (c : UInt8) : Bool := 65 ≤ c && c ≤ 90

/-- `B32_CHARSET[c]` on a `string_view`: out of range is undefined. -/
def charsetAt (c : Nat) : Out UInt8 :=
  match charset[c]? with
  | some x => .ok x
  | none => .ub

/-- The loop appending characters. src/encodings.cpp:286. -/
def chars : List Nat → Out Bytes
  | [] => .ok []
  | c :: cs => do
    let x ← charsetAt c
    let xs ← chars cs
    pure (x :: xs)

/-- `BECH32::encode`. src/encodings.cpp:270-288. -/
def encode (hrp data : Bytes) : Out Bytes :=
  if hrp.any isUpper then .throw .invalidArgument
  else do
    let unpacked ← convertbits (data.map UInt8.toNat) 8 5 true
    let combined := unpacked ++ createChecksum hrp unpacked
    let cs ← chars combined
    pure (hrp ++ [49] ++ cs)

/-- `std::string::rfind(ch)`: index of the last occurrence. src/encodings.cpp:303. -/
def rfind (ch : UInt8) : Bytes → Option Nat
  | [] => none
  | c :: cs =>
    match rfind ch cs with
    | some i => some (i + 1)
    | none => if c = ch then some 0 else none

/-- The loop reading the data part; `B32_CHARSET_REV[c]` for `c ≥ 128` is an
out-of-bounds read. src/encodings.cpp:310-320. -/
def values : Bytes → Out (List Nat)
  | [] => .ok []
  | c :: cs =>
    match charsetRev[c.toNat]? with
    | none => .ub
    | some rev =>
      if rev = -1 then .throw .invalidArgument
      else (values cs).bind (fun vs => .ok (rev.toNat :: vs))

/-- `BECH32::decode`. src/encodings.cpp:290-333. -/
def decode (str : Bytes) : Out (Bytes × Bytes) :=
  let s := str.map toLower
  match rfind 49 s with
  | none => .throw .invalidArgument
  | some pos =>
    if pos = 0 ∨ pos + 7 > str.length then .throw .invalidArgument
    else do
      let vals ← values (s.drop (pos + 1))
      let hrp := s.take pos
      if verifyChecksum hrp vals then
        let packed ← convertbits (vals.take (vals.length - 6)) 5 8 false
        pure (hrp, packed.map UInt8.ofNat)
      else .throw .invalidArgument

/-- `BECH32::encode_hex`. src/encodings.cpp:335-340. -/
def encodeHex (hrp hex : Bytes) : Out Bytes := do
  let v ← Hex.decode hex
  encode hrp v

/-- `BECH32::decode_hex`. src/encodings.cpp:342-348. -/
def decodeHex (str : Bytes) : Out (Bytes × Bytes) := do
  let r ← decode str
  pure (r.1, Hex.encode r.2)


end Cardano.Bech32
