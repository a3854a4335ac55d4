import Verif.Model.Basic

/-! # BIP-173 (Bech32), written from the standard

Arithmetic in the field of 32 elements, the generator polynomial over that field, and
the shape of a valid string.  Nothing here refers to the model of the code. -/

namespace Cardano.Bip173

/-- Multiplication by the field element `a`, where `a^5 = a^3 + 1` (elements are 5-bit
numbers, bit `i` is the coefficient of `a^i`). -/
def timesA (x : Nat) : Nat := if x < 16 then 2 * x else (2 * x - 32) ^^^ 9

/-- Multiplication in the field of 32 elements: sum of `x * a^i` over the bits `i` of `y`. -/
def gfMul (x y : Nat) : Nat :=
  let p0 := x
  let p1 := timesA p0
  let p2 := timesA p1
  let p3 := timesA p2
  let p4 := timesA p3
  (if y.testBit 0 then p0 else 0) ^^^ (if y.testBit 1 then p1 else 0) ^^^ (if y.testBit 2 then p2 else 0) ^^^
  (if y.testBit 3 then p3 else 0) ^^^ (if y.testBit 4 then p4 else 0)

/-- One step of the division by the generator polynomial
`g(x) = x^6 + {29}x^5 + {22}x^4 + {20}x^3 + {21}x^2 + {29}x + {18}`: from the remainder `r`
(coefficients of `x^5` down to `1`) to the remainder of `r·x + v`. -/
def remStep : List Nat → Nat → List Nat
  | [r5, r4, r3, r2, r1, r0], v =>
    [r4 ^^^ gfMul 29 r5, r3 ^^^ gfMul 22 r5, r2 ^^^ gfMul 20 r5, r1 ^^^ gfMul 21 r5, r0 ^^^ gfMul 29 r5,
      v ^^^ gfMul 18 r5]
  | r, _ => r

/-- Remainder modulo `g` of the polynomial with leading coefficient 1 followed by the
given coefficients. -/
def remainder (vs : List Nat) : List Nat := vs.foldl remStep [0, 0, 0, 0, 0, 1]

/-- The human-readable part as field elements. -/
def expand (hrp : Bytes) : List Nat := hrp.map (fun c => c.toNat / 32) ++ [0] ++ hrp.map (fun c => c.toNat % 32)

/-- The character of a value. -/
def char (v : Nat) : UInt8 := (ascii "qpzry9x8gf2tvdw0s3jn54khce6mua7l").getD v 0

/-- The `w` bits of a number, most significant first, for a list of numbers in order. -/
def bits (w : Nat) (vs : List Nat) : List Bool :=
  vs.flatMap fun v => (List.range w).map fun i => decide (v / 2 ^ (w - 1 - i) % 2 = 1)

/-- `s`, up to letter case, is the Bech32 string with human-readable part `hrp` and payload
`data`: separator `1`, the payload regrouped to five bits with fewer than five zero
padding bits, and six checksum characters making the remainder 1.  (The standard's
limit of 90 characters and its ban on mixed case are not part of this definition.) -/
def IsString (s hrp data : Bytes) : Prop :=
  ∃ (vals check : List Nat) (pad : Nat),
    hrp ≠ [] ∧ check.length = 6 ∧ (∀ v ∈ vals ++ check, v < 32) ∧
    s.map toLower = hrp ++ ascii "1" ++ (vals ++ check).map char ∧
    remainder (expand hrp ++ vals ++ check) = [0, 0, 0, 0, 0, 1] ∧
    pad < 5 ∧ bits 5 vals = bits 8 (data.map UInt8.toNat) ++ List.replicate pad false

end Cardano.Bip173
