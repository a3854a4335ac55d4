import Verif.Model.Basic
import Verif.Model.Hex

/-
Base58, src/encodings.cpp:350-448.
Digit vectors are lists, least significant digit first (index order of the C++
vectors).
-/

namespace Cardano.Base58

/-- `B58_CHARSET`. src/encodings.cpp:355-360. -/
def charset : Bytes := ascii "123456789ABCDEFGHJKLMNPQRSTUVWXYZabcdefghijkmnopqrstuvwxyz"

/-- `B58_CHARSET_REV[128]`. src/encodings.cpp:362-370. -/
def charsetRev : List Int := [
    -1, -1, -1, -1, -1, -1, -1, -1, -1, -1, -1, -1, -1, -1, -1, -1, -1, -1, -1,
    -1, -1, -1, -1, -1, -1, -1, -1, -1, -1, -1, -1, -1, -1, -1, -1, -1, -1, -1,
    -1, -1, -1, -1, -1, -1, -1, -1, -1, -1, -1, 0,  1,  2,  3,  4,  5,  6,  7,
    8,  -1, -1, -1, -1, -1, -1, -1, 9,  10, 11, 12, 13, 14, 15, 16, -1, 17, 18,
    19, 20, 21, -1, 22, 23, 24, 25, 26, 27, 28, 29, 30, 31, 32, -1, -1, -1, -1,
    -1, -1, 33, 34, 35, 36, 37, 38, 39, 40, 41, 42, 43, -1, 44, 45, 46, 47, 48,
    49, 50, 51, 52, 53, 54, 55, 56, 57, -1, -1, -1, -1, -1 ]

/-- Inner loop of `encode` over the used digits. src/encodings.cpp:379-384.
(`carry` stays below 2^14, so `uint32_t` never wraps.)  Returns the digits and
the final carry. -/
def encInner : (carry : Nat) → List Nat → List Nat × Nat
  | carry, [] => ([], carry)
  | carry, d :: ds =>
    let carry := carry + (d <<< 8)
    let r := encInner (carry / 58) ds
    (carry % 58 :: r.1, r.2)

/-- `for (; carry; carry /= 58) digits[digitslen++] = carry % 58`: writing at or
beyond the buffer size `cap` is undefined. src/encodings.cpp:385-386.  `fuel`
bounds the iterations (`carry` suffices). -/
def encExt (cap : Nat) : (fuel carry : Nat) → List Nat → Out (List Nat)
  | 0, carry, digits => if carry = 0 then .ok digits else .ub
  | fuel + 1, carry, digits =>
    if carry = 0 then .ok digits
    else if digits.length ≥ cap then .ub
    else encExt cap fuel (carry / 58) (digits ++ [carry % 58])

/-- The outer loop of `encode`. src/encodings.cpp:376-387. -/
def encLoop (cap : Nat) : List Nat → Bytes → Out (List Nat)
  | digits, [] => .ok digits
  | digits, b :: bs =>
    let r := encInner b.toNat digits
    (encExt cap r.2 r.2 r.1).bind (fun digits => encLoop cap digits bs)

/-- Number of iterations of `for (i = 0; i < size-1 && !values[i]; i++)` for a
non-empty input. src/encodings.cpp:389-390. -/
def leadingZeros : Bytes → Nat
  | [] => 0
  | [_] => 0
  | b :: bs => if b = 0 then leadingZeros bs + 1 else 0

/-- `B58_CHARSET[d]`; a digit outside the array is an out-of-bounds read. -/
def charAt (d : Nat) : Out UInt8 :=
  match charset[d]? with
  | some c => .ok c
  | none => .ub

/-- The loop emitting characters. src/encodings.cpp:391-392. -/
def chars : List Nat → Out Bytes
  | [] => .ok []
  | d :: ds => do
    let c ← charAt d
    let cs ← chars ds
    pure (c :: cs)

/-- `BASE58::encode`. src/encodings.cpp:372-394.  `values.size() - 1` wraps
for an empty input and `values[0]` is then read out of bounds. -/
def encode (values : Bytes) : Out Bytes := do
  let cap := values.length * 138 / 100 + 1
  let digits ← encLoop cap [0] values
  if values = [] then .ub
  else do
    let cs ← chars digits.reverse
    pure (List.replicate (leadingZeros values) 49 ++ cs)

/-- Inner loop of `decode`; `uint32_t` arithmetic wraps. src/encodings.cpp:409-414. -/
def decInner : (carry : Nat) → List Nat → List Nat × Nat
  | carry, [] => ([], carry)
  | carry, d :: ds =>
    let carry := (carry + d * 58) % 2 ^ 32
    let r := decInner (carry >>> 8) ds
    ((carry &&& 0xff) :: r.1, r.2)

/-- `while (carry > 0)` loop of `decode`. src/encodings.cpp:415-420. -/
def decExt : (fuel carry : Nat) → List Nat → List Nat
  | 0, _, res => res
  | fuel + 1, carry, res =>
    if carry > 0 then decExt fuel (carry >>> 8) (res ++ [carry &&& 0xff]) else res

/-- Main loop of `decode`. src/encodings.cpp:402-421.  A character ≥ 128 throws;
the table entry −1 is *not* tested and becomes the carry 0xFFFFFFFF. -/
def decLoop : List Nat → Bytes → Out (List Nat)
  | res, [] => .ok res
  | res, c :: cs =>
    if c.toNat ≥ 128 then .throw .invalidArgument
    else
      match charsetRev[c.toNat]? with
      | none => .ub
      | some rev =>
        let carry := if rev = -1 then 2 ^ 32 - 1 else rev.toNat
        let r := decInner carry res
        decLoop (decExt r.2 r.2 r.1) cs

/-- Number of leading `'1'` characters. src/encodings.cpp:423-427. -/
def leadingOnes : Bytes → Nat
  | [] => 0
  | c :: cs => if c = 49 then leadingOnes cs + 1 else 0

/-- One swap of the reversing loop: exchange entries `i` and `n-1-i`.
src/encodings.cpp:431-433. -/
def swap (l : List Nat) (i : Nat) : List Nat :=
  let j := l.length - i - 1
  (l.set i (l.getD j 0)).set j (l.getD i 0)

/-- `for (i = len-1, z = ceil(len/2); i >= z; i--)`, called with the number of
iterations `k` still to do; the index is `z + k - 1`. src/encodings.cpp:429-434. -/
def swapLoop (z : Nat) : (k : Nat) → List Nat → List Nat
  | 0, l => l
  | k + 1, l => swapLoop z k (swap l (z + k))

/-- `BASE58::decode`. src/encodings.cpp:396-436. -/
def decode (str : Bytes) : Out Bytes := do
  let res ← decLoop [0] str
  let res := res ++ List.replicate (leadingOnes str) 0
  let z := (res.length >>> 1) + (res.length &&& 1)
  let res := swapLoop z (res.length - z) res
  pure (res.map UInt8.ofNat)

/-- `BASE58::encode_hex`. src/encodings.cpp:438-442. -/
def encodeHex (hex : Bytes) : Out Bytes := do
  let v ← Hex.decode hex
  encode v

/-- `BASE58::decode_hex`. src/encodings.cpp:444-448. -/
def decodeHex (str : Bytes) : Out Bytes := do
  let d ← decode str
  pure (Hex.encode d)


end Cardano.Base58
