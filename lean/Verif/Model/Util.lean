import Verif.Model.Basic

/-! # Model of `include/cardano/util.hpp` and `src/util.cpp` -/

namespace Cardano.Util

/-- `BytePacker<IntType>::pack(value, BigEndian)`, `sizeof(IntType) = n`
(include/cardano/util.hpp:110-124). -/
def packBE (n value : Nat) : Bytes :=
  (List.range n).map fun i => UInt8.ofNat ((value >>> (8 * (n - 1 - i))) &&& 0xFF)

/-- `BytePacker<IntType>::pack(value, LittleEndian)` (include/cardano/util.hpp:125-132). -/
def packLE (n value : Nat) : Bytes :=
  (List.range n).map fun i => UInt8.ofNat ((value >>> (8 * i)) &&& 0xFF)

/-- `BytePacker<IntType>::unpack(bytes, BigEndian)` (include/cardano/util.hpp:139-152).
The span has the fixed extent `n` (static), so indexing is in range; the shift is
performed in the unsigned type `IntType`, hence the reduction. -/
def unpackBE (n : Nat) (bytes : Bytes) : Nat :=
  (List.range n).foldl (fun value i =>
    value ||| (((bytes.getD i 0).toNat <<< (8 * (n - 1 - i))) % 2 ^ (8 * n))) 0

/-- `BytePacker<IntType>::unpack(bytes, LittleEndian)` (include/cardano/util.hpp:153-161). -/
def unpackLE (n : Nat) (bytes : Bytes) : Nat :=
  (List.range n).foldl (fun value i =>
    value ||| (((bytes.getD i 0).toNat <<< (8 * i)) % 2 ^ (8 * n))) 0

/-! ## rationalApprox -/

/-- Signed 64-bit arithmetic result: overflow is undefined behaviour. -/
def i64 (z : Int) : Out Int := if -(2 ^ 63) ≤ z ∧ z < 2 ^ 63 then .ok z else .ub

/-- The working variables of `rationalApprox` (src/util.cpp:66-72). -/
structure RaState where
  d : Int
  n : Int
  h0 : Int
  h1 : Int
  k0 : Int
  k1 : Int
  deriving Repr, DecidableEq

/-- The `for` loop of `rationalApprox` (src/util.cpp:95-120); `rem` is the number of
iterations still allowed (`64 - i`), `first` is `i == 0`.  Division by zero and
signed overflow are undefined behaviour. -/
def raLoop (md : Int) : (rem : Nat) → (first : Bool) → RaState → Out RaState
  | 0, _, s => .ok s
  | rem + 1, first, s => do
    let a ← if s.n ≠ 0 then i64 (s.d.tdiv s.n) else .ok 0
    if (!first) ∧ a = 0 then return s
    if s.n = 0 then .ub else
    let x := s.d
    let d := s.n
    let n := x.tmod s.n
    let p ← i64 (s.k1 * a)
    let q ← i64 (p + s.k0)
    if q ≥ md then
      if s.k1 = 0 then .ub else
      let x := (md - s.k0).tdiv s.k1
      let y ← i64 (x * 2)
      if y ≥ a ∨ s.k1 ≥ md then
        -- `i = 65`: this iteration is completed and the loop ends
        let h2 ← i64 (x * s.h1 + s.h0)
        let k2 ← i64 (x * s.k1 + s.k0)
        return { d := d, n := n, h0 := s.h1, h1 := h2, k0 := s.k1, k1 := k2 }
      else
        return { s with d := d, n := n }
    else
      let h2 ← i64 (a * s.h1 + s.h0)
      let k2 ← i64 (a * s.k1 + s.k0)
      raLoop md rem false { d := d, n := n, h0 := s.h1, h1 := h2, k0 := s.k1, k1 := k2 }

/-- Result of `n <<= 1` repeated `e` times from `1` in `int64_t` (C++20: wraps). -/
def shl64 (e : Nat) : Int := if e < 63 then 2 ^ e else if e = 63 then -(2 ^ 63) else 0

/-- `util::rationalApprox(f, md)` (src/util.cpp:63-124) for the finite double
`f = ± m / 2^e`, where `m` is odd or `e = 0` (each finite double has exactly one such
form).  This is the closed form of `rationalApproxD` below (`C17_closed_form`): the doubling
loop `while (f != floor(f))` makes exactly `e` turns.  `(int64_t) f` truncates; a value outside `int64_t` is undefined. -/
def rationalApprox (neg : Bool) (m e : Nat) (md : Int) : Out (Int × Int) := do
  if md ≤ 1 then
    let t ← i64 (if neg then -((m / 2 ^ e : Nat) : Int) else ((m / 2 ^ e : Nat) : Int))
    return (t, 1)
  else
    let isNeg := neg && decide (m ≠ 0)
    let d ← i64 (m : Int)
    let s ← raLoop md 64 true { d := d, n := shl64 e, h0 := 0, h1 := 1, k0 := 1, k1 := 0 }
    return (if isNeg then -s.h1 else s.h1, s.k1)

/-- A `double`: NaN, an infinity, or the finite value `± m / 2^e` with `m` odd or `e = 0`
(so that each finite double has one form up to the sign of zero). -/
inductive Dbl where
  | nan
  | inf (neg : Bool)
  | fin (neg : Bool) (m e : Nat)
  deriving DecidableEq, Repr

/-- `f < 0.0`. -/
def Dbl.ltZero : Dbl → Bool
  | .nan => false
  | .inf neg => neg
  | .fin neg m _ => neg && decide (m ≠ 0)

/-- `f > 1.0`. -/
def Dbl.gtOne : Dbl → Bool
  | .nan => false
  | .inf neg => !neg
  | .fin neg m e => !neg && decide (2 ^ e < m)

/-- `-f`. -/
def Dbl.negate : Dbl → Dbl
  | .nan => .nan
  | .inf neg => .inf (!neg)
  | .fin neg m e => .fin (!neg) m e

/-- `f == floor(f)`; comparisons with NaN are false. -/
def Dbl.isInt : Dbl → Bool
  | .nan => false
  | .inf _ => true
  | .fin _ m e => decide (m % 2 ^ e = 0)

/-- `f * 2` (exact: the loop only doubles values with a fractional part, which are far from
the overflow limit). -/
def Dbl.double : Dbl → Dbl
  | .nan => .nan
  | .inf neg => .inf neg
  | .fin neg m 0 => .fin neg (2 * m) 0
  | .fin neg m (e + 1) => .fin neg m e

/-- `(int64_t) f`: truncation; undefined for values that do not fit. -/
def Dbl.toI64 : Dbl → Out Int
  | .nan => .ub
  | .inf _ => .ub
  | .fin neg m e => i64 (if neg then -((m / 2 ^ e : Nat) : Int) else ((m / 2 ^ e : Nat) : Int))

/-- `n <<= 1` on an `int64_t` (C++20: modulo 2^64). -/
def shl1 (n : Int) : Int := (2 * n + 2 ^ 63) % 2 ^ 64 - 2 ^ 63

/-- `while (f != floor(f)) { n <<= 1; f *= 2; }` (src/util.cpp:87-91); `none` if it has not
ended after `fuel` tests. -/
def doubling : (fuel : Nat) → Dbl → Int → Option (Dbl × Int)
  | 0, _, _ => none
  | fuel + 1, f, n => if f.isInt then some (f, n) else doubling fuel f.double (shl1 n)

/-- The part after the loop (src/util.cpp:92-123). -/
def raTail (isNeg : Bool) (md : Int) (f : Dbl) (n : Int) : Out (Int × Int) := do
  let d ← f.toI64
  let s ← raLoop md 64 true { d := d, n := n, h0 := 0, h1 := 1, k0 := 1, k1 := 0 }
  return (if isNeg then -s.h1 else s.h1, s.k1)

/-- `util::rationalApprox(f, md)` (src/util.cpp:63-124) on any double; `none` if the doubling
loop has not ended after `fuel` tests. -/
def rationalApproxD (fuel : Nat) (f : Dbl) (md : Int) : Option (Out (Int × Int)) :=
  if md ≤ 1 then some (do let t ← f.toI64; return (t, 1))
  else (doubling fuel (if f.ltZero then f.negate else f) 1).map fun r => raTail f.ltZero md r.1 r.2

/-! ## writeEnvelopeTextFile -/

/-- The pieces written with `<<` (src/util.cpp:47-51). -/
def envelopeChunks (type description cborHex : Bytes) : List Bytes :=
  [ascii "{\n",
   ascii "    \"type\": \"", type, ascii "\",\n",
   ascii "    \"description\": \"", description, ascii "\",\n",
   ascii "    \"cborHex\": \"", cborHex, ascii "\"\n",
   ascii "}"]

/-- The environment of one run: can the file be opened, how many bytes the stream
buffer holds before it is flushed, and how many bytes the device accepts. -/
structure Disk where
  openable : Bool
  bufCap : Nat
  space : Nat

/-- Flush `pending` to a file with content `file`: everything that fits is written;
`false` if something did not fit. -/
def flush (dk : Disk) (file pending : Bytes) : Bytes × Bool :=
  ((file ++ pending).take (max dk.space file.length), decide ((file ++ pending).length ≤ max dk.space file.length))

/-- The `<<` statements: a chunk is buffered when it fits, otherwise buffer and chunk
are flushed; a failed flush raises `failure`, rethrown as `runtime_error`
(src/util.cpp:43-60).  Returns (file, pending buffer) or the file at the throw. -/
def putChunks (dk : Disk) : List Bytes → (file pending : Bytes) → Bytes × Out Bytes
  | [], file, pending => (file, .ok pending)
  | c :: cs, file, pending =>
    if (pending ++ c).length ≤ dk.bufCap then putChunks dk cs file (pending ++ c)
    else
      let r := flush dk file (pending ++ c)
      if r.2 then putChunks dk cs r.1 [] else (r.1, .throw .runtimeError)

/-- `util::writeEnvelopeTextFile` (src/util.cpp:28-61): opening truncates the file; the
stream destructor flushes what is still buffered and ignores errors (it must not
throw).  Result: file content afterwards and how the call ended. -/
def writeEnvelope (dk : Disk) (old type description cborHex : Bytes) : Bytes × Out Unit :=
  if !dk.openable then (old, .throw .runtimeError)
  else
    match putChunks dk (envelopeChunks type description cborHex) [] [] with
    | (file, .ok pending) => ((flush dk file pending).1, .ok ())
    | (file, .throw e) => (file, .throw e)
    | (file, .ub) => (file, .ub)

/-- `f` is a content the file may have when the process is killed at an arbitrary
moment of a run: the old content (before the truncating `open`), or what has reached
the device so far, which is an initial part of what the run writes. -/
def CrashContent (dk : Disk) (old type description cborHex f : Bytes) : Prop :=
  f = old ∨ (dk.openable = true ∧ f <+: (writeEnvelope dk old type description cborHex).1)

end Cardano.Util
