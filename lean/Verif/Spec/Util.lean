import Verif.Model.Basic

/-! # Independent vocabulary for integers as bytes -/

namespace Cardano

/-- The number a byte string denotes when the first byte is the least significant. -/
def leNat : Bytes → Nat
  | [] => 0
  | b :: bs => b.toNat + 256 * leNat bs

/-- The number a byte string denotes when the first byte is the most significant. -/
def beNat (bs : Bytes) : Nat := leNat bs.reverse

/-- How many divisions Euclid's algorithm makes on `a` and `b`. -/
def divisions (a b : Nat) : Nat := if h : b = 0 then 0 else divisions b (a % b) + 1
termination_by b
decreasing_by exact Nat.mod_lt _ (Nat.pos_of_ne_zero h)

end Cardano
