import Mathlib.Data.Int.Log
import Mathlib.Data.Rat.Floor
import Verif.Model.Basic

/-! # Model of `love2ada` and `ada2love` (include/cardano/util.hpp:39-53)

`double` is IEEE 754 binary64 with the default rounding.  A finite `double` is the rational
number it stands for.  Overflow to infinity is not modelled apart: a product that overflows is
above 2^63, and the conversion of anything above 2^63 to `int64_t` is undefined whether it is
infinite or not. -/

namespace Cardano.Ada

/-- Round to the nearest integer, ties to even. -/
def rne (q : ℚ) : ℤ :=
  if q - ⌊q⌋ < 1 / 2 then ⌊q⌋
  else if 1 / 2 < q - ⌊q⌋ then ⌊q⌋ + 1
  else if ⌊q⌋ % 2 = 0 then ⌊q⌋ else ⌊q⌋ + 1

/-- Exponent of the last place of the binary64 numbers around the positive number `q`:
53 significant digits, and never below 2^-1074. -/
def lastPlace (q : ℚ) : ℤ := max (Int.log 2 q - 52) (-1074)

/-- The binary64 number nearest to a positive rational. -/
def flPos (q : ℚ) : ℚ := rne (q / 2 ^ lastPlace q) * 2 ^ lastPlace q

/-- IEEE 754 `roundTiesToEven` to binary64: the result of each arithmetic operation is the exact
result rounded. -/
def fl (q : ℚ) : ℚ := if 0 < q then flPos q else if q < 0 then -flPos (-q) else 0

/-- A `double` argument. -/
inductive Dbl where
  | fin (q : ℚ)
  | inf
  | nan

/-- `love2ada` (include/cardano/util.hpp:42-45): conversion, then division. -/
def love2ada (lovelaces : ℤ) : ℚ := fl (fl lovelaces / 1000000)

/-- `static_cast<int64_t>` of a truncated `double`: undefined outside the range. -/
def truncI64 (q : ℚ) : Out ℤ :=
  let n := if 0 ≤ q then ⌊q⌋ else ⌈q⌉
  if -2 ^ 63 ≤ n ∧ n < 2 ^ 63 then .ok n else .ub

/-- `ada2love` (include/cardano/util.hpp:50-53): the integer literal is converted to `double`,
multiplied, truncated, converted. -/
def ada2love : Dbl → Out ℤ
  | .fin ada => truncI64 (fl (1000000 * ada))
  | .inf => .ub
  | .nan => .ub

end Cardano.Ada
