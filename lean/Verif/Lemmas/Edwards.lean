import Mathlib.Algebra.Field.Basic
import Mathlib.Tactic.LinearCombination
import Mathlib.Tactic.FieldSimp
import Mathlib.Tactic.Ring
import Mathlib.Algebra.Group.Even
import Mathlib.Algebra.Group.Defs

/-! # The group of a complete twisted Edwards curve with a = -1

`-x² + y² = 1 + d x² y²` over a field in which -1 is a square and `d` is not (Bernstein, Birkner,
Joye, Lange, Peters, "Twisted Edwards curves").  The addition formulas have no exceptions
there, so associativity is a polynomial identity modulo the three curve equations; the
cofactors in `linear_combination` were computed by a script and are checked by `ring`. -/

namespace Cardano.Edwards

/-- A field with the constants that make the curve complete. -/
class Params (K : Type) [Field K] where
  d : K
  i : K
  i_sq : i ^ 2 = -1
  d_nonsquare : ¬ IsSquare d
  two_ne_zero : (2 : K) ≠ 0

variable {K : Type} [Field K] [E : Params K]

open Params

/-- A point of the curve. -/
@[ext] structure Point (K : Type) [Field K] [Params K] where
  x : K
  y : K
  on : -x ^ 2 + y ^ 2 = 1 + d * x ^ 2 * y ^ 2

/-- The denominators never vanish. -/
theorem denom_ne_zero (P Q : Point K) (e : K) (he : e ^ 2 = 1) :
    1 + e * (d * P.x * Q.x * P.y * Q.y) ≠ 0 := by
  obtain ⟨x1, y1, h1⟩ := P
  obtain ⟨x2, y2, h2⟩ := Q
  dsimp only
  intro h0
  obtain ⟨t, ht⟩ : ∃ t, t = d * x1 * x2 * y1 * y2 := ⟨_, rfl⟩
  have hte : t = -e := by
    have : e * (1 + e * t) = 0 := by rw [ht, h0, mul_zero]
    linear_combination this - t * he
  have ht2 : t ^ 2 = 1 := by rw [hte]; linear_combination he
  have hi := i_sq (K := K)
  have key1 : (i * x1 + t * y1) ^ 2 = d * (x1 * y1 * (i * x2 + y2)) ^ 2 := by
    rw [ht] at ht2 ⊢
    linear_combination (x1 ^ 2 - d * x1 ^ 2 * y1 ^ 2 * x2 ^ 2) * hi + y1 ^ 2 * ht2 + h1 - d * x1 ^ 2 * y1 ^ 2 * h2 - ht2
  have key2 : (i * x1 - t * y1) ^ 2 = d * (x1 * y1 * (i * x2 - y2)) ^ 2 := by
    rw [ht] at ht2 ⊢
    linear_combination (x1 ^ 2 - d * x1 ^ 2 * y1 ^ 2 * x2 ^ 2) * hi + y1 ^ 2 * ht2 + h1 - d * x1 ^ 2 * y1 ^ 2 * h2 - ht2
  have tn : t ≠ 0 := by
    intro h; rw [h] at ht2; simp at ht2
  have nz : ∀ z : K, z = x1 * y1 → z ≠ 0 := by
    rintro z rfl h
    apply tn
    rw [ht]; linear_combination d * x2 * y2 * h
  have sq : ∀ u v : K, u ^ 2 = d * v ^ 2 → v = 0 := by
    intro u v huv
    by_contra hv
    apply d_nonsquare (K := K)
    refine ⟨u / v, ?_⟩
    rw [div_mul_div_comm, eq_div_iff (mul_ne_zero hv hv)]
    linear_combination -huv
  have z1 := sq _ _ key1
  have z2 := sq _ _ key2
  have w1 := (mul_eq_zero.mp z1).resolve_left (nz _ rfl)
  have w2 := (mul_eq_zero.mp z2).resolve_left (nz _ rfl)
  have hx2 : i * x2 = 0 := by
    have : 2 * (i * x2) = 0 := by linear_combination w1 + w2
    exact (mul_eq_zero.mp this).resolve_left two_ne_zero
  have hi0 : (i : K) ≠ 0 := by
    intro h; rw [h] at hi; simp at hi
  have hx : x2 = 0 := (mul_eq_zero.mp hx2).resolve_left hi0
  apply tn
  rw [ht, hx]; ring

theorem dp (P Q : Point K) : 1 + d * P.x * Q.x * P.y * Q.y ≠ 0 := by
  have := denom_ne_zero P Q 1 (by ring)
  rwa [one_mul] at this

theorem dm (P Q : Point K) : 1 - d * P.x * Q.x * P.y * Q.y ≠ 0 := by
  have := denom_ne_zero P Q (-1) (by ring)
  rwa [neg_one_mul, ← sub_eq_add_neg] at this

/-- Addition (RFC 8032, section 5.1.4, in affine form). -/
def add (P Q : Point K) : Point K where
  x := (P.x * Q.y + P.y * Q.x) / (1 + d * P.x * Q.x * P.y * Q.y)
  y := (P.y * Q.y + P.x * Q.x) / (1 - d * P.x * Q.x * P.y * Q.y)
  on := by
    have hp := dp P Q
    have hm := dm P Q
    obtain ⟨x1, y1, h1⟩ := P
    obtain ⟨x2, y2, h2⟩ := Q
    dsimp only at *
    have e1 : y1 ^ 2 - x1 ^ 2 - 1 - d * x1 ^ 2 * y1 ^ 2 = 0 := by linear_combination h1
    have e2 : y2 ^ 2 - x2 ^ 2 - 1 - d * x2 ^ 2 * y2 ^ 2 = 0 := by linear_combination h2
    clear h1 h2
    rename' e1 => h1, e2 => h2
    rw [div_pow, div_pow]
    generalize hDa : 1 + d * x1 * x2 * y1 * y2 = Da at *
    generalize hDb : 1 - d * x1 * x2 * y1 * y2 = Db at *
    field_simp
    rw [← hDa, ← hDb]
    linear_combination (1 * y2^4 + (-4) * x2^2 * y2^2 + (-2) * x2^2 * y2^2 * d + 2 * x2^2 * y2^4 + 1 * x2^4 + (-2) * x2^4 * y2^2 + (-2) * x2^4 * y2^4 * d + (-1) * x2^4 * y2^4 * d^2 + (-1) * y1^2 * x2^2 * y2^4 * d + 1 * y1^2 * x2^4 * y2^2 * d + 1 * y1^2 * x2^4 * y2^4 * d^2 + 1 * x1^2 * x2^2 * y2^4 * d + (-1) * x1^2 * x2^4 * y2^2 * d + (-1) * x1^2 * x2^4 * y2^4 * d^2 + 1 * x1^2 * y1^2 * x2^4 * y2^4 * d^3) * h1
      + (1 + 1 * y2^2 + (-1) * x2^2 + 2 * x2^2 * y2^2 + 1 * x2^2 * y2^2 * d + (-1) * y1^2 * y2^2 + 1 * y1^2 * x2^2 + (-2) * y1^2 * x2^2 * y2^2 + (-2) * y1^2 * x2^2 * y2^2 * d + 1 * y1^4 * x2^2 * y2^2 * d + 1 * x1^2 * y2^2 + (-1) * x1^2 * x2^2 + 2 * x1^2 * x2^2 * y2^2 + 2 * x1^2 * x2^2 * y2^2 * d + 1 * x1^4 * x2^2 * y2^2 * d) * h2

theorem add_x (P Q : Point K) : (add P Q).x * (1 + d * P.x * Q.x * P.y * Q.y) = P.x * Q.y + P.y * Q.x :=
  div_mul_cancel₀ _ (dp P Q)

theorem add_y (P Q : Point K) : (add P Q).y * (1 - d * P.x * Q.x * P.y * Q.y) = P.y * Q.y + P.x * Q.x :=
  div_mul_cancel₀ _ (dm P Q)

theorem assoc_aux {x1 y1 x2 y2 x3 y3 xa ya xb yb Da Da' Db Db' d : K}
    (h1 : y1 ^ 2 - x1 ^ 2 - 1 - d * x1 ^ 2 * y1 ^ 2 = 0) (h2 : y2 ^ 2 - x2 ^ 2 - 1 - d * x2 ^ 2 * y2 ^ 2 = 0)
    (h3 : y3 ^ 2 - x3 ^ 2 - 1 - d * x3 ^ 2 * y3 ^ 2 = 0)
    (hDa : Da = 1 + d * x1 * x2 * y1 * y2) (hDa' : Da' = 1 - d * x1 * x2 * y1 * y2)
    (hDb : Db = 1 + d * x2 * x3 * y2 * y3) (hDb' : Db' = 1 - d * x2 * x3 * y2 * y3)
    (na : Da ≠ 0) (na' : Da' ≠ 0) (nb : Db ≠ 0) (nb' : Db' ≠ 0)
    (hxa : xa * Da = x1 * y2 + y1 * x2) (hya : ya * Da' = y1 * y2 + x1 * x2)
    (hxb : xb * Db = x2 * y3 + y2 * x3) (hyb : yb * Db' = y2 * y3 + x2 * x3) :
    (xa * y3 + ya * x3) * (1 + d * x1 * xb * y1 * yb) = (x1 * yb + y1 * xb) * (1 + d * xa * x3 * ya * y3) ∧
    (ya * y3 + xa * x3) * (1 - d * x1 * xb * y1 * yb) = (y1 * yb + x1 * xb) * (1 - d * xa * x3 * ya * y3) := by
  have nz : Da * Da' * (Db * Db') ≠ 0 := mul_ne_zero (mul_ne_zero na na') (mul_ne_zero nb nb')
  have l1 : ((x1 * y2 + y1 * x2) * Da' * y3 + (y1 * y2 + x1 * x2) * Da * x3) *
        (Db * Db' + d * x1 * y1 * (x2 * y3 + y2 * x3) * (y2 * y3 + x2 * x3)) =
      (x1 * (y2 * y3 + x2 * x3) * Db + y1 * (x2 * y3 + y2 * x3) * Db') *
        (Da * Da' + d * x3 * y3 * (x1 * y2 + y1 * x2) * (y1 * y2 + x1 * x2)) := by
    rw [hDa, hDa', hDb, hDb']
    linear_combination ((-1) * y1 * x2 * y2^4 * x3^2 * y3 * d + (-1) * y1 * x2^2 * y2^3 * x3 * d + (-1) * y1 * x2^2 * y2^3 * x3^3 * d + (-1) * y1 * x2^3 * y2^2 * y3 * d + 1 * y1 * x2^3 * y2^2 * y3^3 * d + 1 * y1 * x2^3 * y2^4 * x3^2 * y3 * d^2 + 1 * y1 * x2^4 * y2 * x3 * y3^2 * d + 1 * y1 * x2^4 * y2^3 * x3 * y3^2 * d^2 + 1 * x1 * x2 * y2^4 * x3 * y3^2 * d + (-1) * x1 * x2^2 * y2^3 * y3 * d + 1 * x1 * x2^2 * y2^3 * y3^3 * d + (-1) * x1 * x2^3 * y2^2 * x3 * d + (-1) * x1 * x2^3 * y2^2 * x3^3 * d + (-1) * x1 * x2^3 * y2^4 * x3 * y3^2 * d^2 + (-1) * x1 * x2^4 * y2 * x3^2 * y3 * d + (-1) * x1 * x2^4 * y2^3 * x3^2 * y3 * d^2) * h1
      + (1 * y1 * y2 * x3 + (-1) * y1 * y2 * x3 * y3^2 + 1 * y1 * y2 * x3^3 + 1 * y1 * y2 * x3^3 * y3^2 * d + 1 * y1 * x2 * y3 + (-1) * y1 * x2 * y3^3 + 1 * y1 * x2 * x3^2 * y3 + 1 * y1 * x2 * x3^2 * y3^3 * d + (-1) * y1 * x2 * y2^2 * x3^2 * y3 * d + (-1) * y1 * x2^2 * y2 * x3 * y3^2 * d + (-1) * y1^3 * y2 * x3 + 1 * y1^3 * y2 * x3 * y3^2 + (-1) * y1^3 * y2 * x3^3 + (-1) * y1^3 * y2 * x3^3 * y3^2 * d + (-1) * y1^3 * x2 * y3 + 1 * y1^3 * x2 * y3^3 + (-1) * y1^3 * x2 * x3^2 * y3 + (-1) * y1^3 * x2 * x3^2 * y3^3 * d + 1 * y1^3 * x2 * y2^2 * x3^2 * y3 * d + 1 * y1^3 * x2^2 * y2 * x3 * y3^2 * d + 1 * x1 * y2 * y3 + (-1) * x1 * y2 * y3^3 + 1 * x1 * y2 * x3^2 * y3 + 1 * x1 * y2 * x3^2 * y3^3 * d + 1 * x1 * x2 * x3 + (-1) * x1 * x2 * x3 * y3^2 + 1 * x1 * x2 * x3^3 + 1 * x1 * x2 * x3^3 * y3^2 * d + 1 * x1 * x2 * y2^2 * x3 * y3^2 * d + 1 * x1 * x2^2 * y2 * x3^2 * y3 * d + (-1) * x1 * y1^2 * y2 * y3 + 1 * x1 * y1^2 * y2 * y3^3 + (-1) * x1 * y1^2 * y2 * x3^2 * y3 + (-1) * x1 * y1^2 * y2 * x3^2 * y3^3 * d + (-1) * x1 * y1^2 * x2 * x3 + 1 * x1 * y1^2 * x2 * x3 * y3^2 + (-1) * x1 * y1^2 * x2 * x3^3 + (-1) * x1 * y1^2 * x2 * x3^3 * y3^2 * d + (-1) * x1 * y1^2 * x2 * y2^2 * x3 * y3^2 * d + 1 * x1 * y1^2 * x2 * y2^2 * x3^3 * y3^2 * d^2 + (-1) * x1 * y1^2 * x2^2 * y2 * x3^2 * y3 * d + (-1) * x1 * y1^2 * x2^2 * y2 * x3^2 * y3^3 * d^2 + 1 * x1^2 * y1 * y2 * x3 + (-1) * x1^2 * y1 * y2 * x3 * y3^2 + 1 * x1^2 * y1 * y2 * x3^3 + 1 * x1^2 * y1 * y2 * x3^3 * y3^2 * d + 1 * x1^2 * y1 * x2 * y3 + (-1) * x1^2 * y1 * x2 * y3^3 + 1 * x1^2 * y1 * x2 * x3^2 * y3 + 1 * x1^2 * y1 * x2 * x3^2 * y3^3 * d + (-1) * x1^2 * y1 * x2 * y2^2 * x3^2 * y3 * d + (-1) * x1^2 * y1 * x2 * y2^2 * x3^2 * y3^3 * d^2 + (-1) * x1^2 * y1 * x2^2 * y2 * x3 * y3^2 * d + 1 * x1^2 * y1 * x2^2 * y2 * x3^3 * y3^2 * d^2 + 1 * x1^3 * y2 * y3 + (-1) * x1^3 * y2 * y3^3 + 1 * x1^3 * y2 * x3^2 * y3 + 1 * x1^3 * y2 * x3^2 * y3^3 * d + 1 * x1^3 * x2 * x3 + (-1) * x1^3 * x2 * x3 * y3^2 + 1 * x1^3 * x2 * x3^3 + 1 * x1^3 * x2 * x3^3 * y3^2 * d + 1 * x1^3 * x2 * y2^2 * x3 * y3^2 * d + 1 * x1^3 * x2^2 * y2 * x3^2 * y3 * d) * h2
      + ((-1) * y1 * y2 * x3 + 1 * y1 * y2^3 * x3 + (-1) * y1 * x2 * y3 + 1 * y1 * x2 * y2^2 * y3 + (-1) * y1 * x2^2 * y2 * x3 + (-1) * y1 * x2^3 * y3 + 1 * y1^3 * y2 * x3 + (-1) * y1^3 * y2^3 * x3 + 1 * y1^3 * x2 * y3 + (-1) * y1^3 * x2 * y2^2 * y3 + 1 * y1^3 * x2^2 * y2 * x3 + 1 * y1^3 * x2^3 * y3 + (-1) * x1 * y2 * y3 + 1 * x1 * y2^3 * y3 + (-1) * x1 * x2 * x3 + 1 * x1 * x2 * y2^2 * x3 + (-1) * x1 * x2^2 * y2 * y3 + (-1) * x1 * x2^3 * x3 + 1 * x1 * y1^2 * y2 * y3 + (-1) * x1 * y1^2 * y2^3 * y3 + 1 * x1 * y1^2 * x2 * x3 + (-1) * x1 * y1^2 * x2 * y2^2 * x3 + (-1) * x1 * y1^2 * x2 * y2^2 * x3 * d + 1 * x1 * y1^2 * x2^2 * y2 * y3 + 1 * x1 * y1^2 * x2^2 * y2 * y3 * d + 1 * x1 * y1^2 * x2^3 * x3 + (-1) * x1^2 * y1 * y2 * x3 + 1 * x1^2 * y1 * y2^3 * x3 + (-1) * x1^2 * y1 * x2 * y3 + 1 * x1^2 * y1 * x2 * y2^2 * y3 + 1 * x1^2 * y1 * x2 * y2^2 * y3 * d + (-1) * x1^2 * y1 * x2^2 * y2 * x3 + (-1) * x1^2 * y1 * x2^2 * y2 * x3 * d + (-1) * x1^2 * y1 * x2^3 * y3 + (-1) * x1^3 * y2 * y3 + 1 * x1^3 * y2^3 * y3 + (-1) * x1^3 * x2 * x3 + 1 * x1^3 * x2 * y2^2 * x3 + (-1) * x1^3 * x2^2 * y2 * y3 + (-1) * x1^3 * x2^3 * x3) * h3
  have l2 : ((y1 * y2 + x1 * x2) * Da * y3 + (x1 * y2 + y1 * x2) * Da' * x3) *
        (Db * Db' - d * x1 * y1 * (x2 * y3 + y2 * x3) * (y2 * y3 + x2 * x3)) =
      (y1 * (y2 * y3 + x2 * x3) * Db + x1 * (x2 * y3 + y2 * x3) * Db') *
        (Da * Da' - d * x3 * y3 * (x1 * y2 + y1 * x2) * (y1 * y2 + x1 * x2)) := by
    rw [hDa, hDa', hDb, hDb']
    linear_combination (1 * y1 * x2 * y2^4 * x3 * y3^2 * d + (-1) * y1 * x2^2 * y2^3 * y3 * d + 1 * y1 * x2^2 * y2^3 * y3^3 * d + (-1) * y1 * x2^3 * y2^2 * x3 * d + (-1) * y1 * x2^3 * y2^2 * x3^3 * d + (-1) * y1 * x2^3 * y2^4 * x3 * y3^2 * d^2 + (-1) * y1 * x2^4 * y2 * x3^2 * y3 * d + (-1) * y1 * x2^4 * y2^3 * x3^2 * y3 * d^2 + (-1) * x1 * x2 * y2^4 * x3^2 * y3 * d + (-1) * x1 * x2^2 * y2^3 * x3 * d + (-1) * x1 * x2^2 * y2^3 * x3^3 * d + (-1) * x1 * x2^3 * y2^2 * y3 * d + 1 * x1 * x2^3 * y2^2 * y3^3 * d + 1 * x1 * x2^3 * y2^4 * x3^2 * y3 * d^2 + 1 * x1 * x2^4 * y2 * x3 * y3^2 * d + 1 * x1 * x2^4 * y2^3 * x3 * y3^2 * d^2) * h1
      + (1 * y1 * y2 * y3 + (-1) * y1 * y2 * y3^3 + 1 * y1 * y2 * x3^2 * y3 + 1 * y1 * y2 * x3^2 * y3^3 * d + 1 * y1 * x2 * x3 + (-1) * y1 * x2 * x3 * y3^2 + 1 * y1 * x2 * x3^3 + 1 * y1 * x2 * x3^3 * y3^2 * d + 1 * y1 * x2 * y2^2 * x3 * y3^2 * d + 1 * y1 * x2^2 * y2 * x3^2 * y3 * d + (-1) * y1^3 * y2 * y3 + 1 * y1^3 * y2 * y3^3 + (-1) * y1^3 * y2 * x3^2 * y3 + (-1) * y1^3 * y2 * x3^2 * y3^3 * d + (-1) * y1^3 * x2 * x3 + 1 * y1^3 * x2 * x3 * y3^2 + (-1) * y1^3 * x2 * x3^3 + (-1) * y1^3 * x2 * x3^3 * y3^2 * d + (-1) * y1^3 * x2 * y2^2 * x3 * y3^2 * d + (-1) * y1^3 * x2^2 * y2 * x3^2 * y3 * d + 1 * x1 * y2 * x3 + (-1) * x1 * y2 * x3 * y3^2 + 1 * x1 * y2 * x3^3 + 1 * x1 * y2 * x3^3 * y3^2 * d + 1 * x1 * x2 * y3 + (-1) * x1 * x2 * y3^3 + 1 * x1 * x2 * x3^2 * y3 + 1 * x1 * x2 * x3^2 * y3^3 * d + (-1) * x1 * x2 * y2^2 * x3^2 * y3 * d + (-1) * x1 * x2^2 * y2 * x3 * y3^2 * d + (-1) * x1 * y1^2 * y2 * x3 + 1 * x1 * y1^2 * y2 * x3 * y3^2 + (-1) * x1 * y1^2 * y2 * x3^3 + (-1) * x1 * y1^2 * y2 * x3^3 * y3^2 * d + (-1) * x1 * y1^2 * x2 * y3 + 1 * x1 * y1^2 * x2 * y3^3 + (-1) * x1 * y1^2 * x2 * x3^2 * y3 + (-1) * x1 * y1^2 * x2 * x3^2 * y3^3 * d + 1 * x1 * y1^2 * x2 * y2^2 * x3^2 * y3 * d + 1 * x1 * y1^2 * x2 * y2^2 * x3^2 * y3^3 * d^2 + 1 * x1 * y1^2 * x2^2 * y2 * x3 * y3^2 * d + (-1) * x1 * y1^2 * x2^2 * y2 * x3^3 * y3^2 * d^2 + 1 * x1^2 * y1 * y2 * y3 + (-1) * x1^2 * y1 * y2 * y3^3 + 1 * x1^2 * y1 * y2 * x3^2 * y3 + 1 * x1^2 * y1 * y2 * x3^2 * y3^3 * d + 1 * x1^2 * y1 * x2 * x3 + (-1) * x1^2 * y1 * x2 * x3 * y3^2 + 1 * x1^2 * y1 * x2 * x3^3 + 1 * x1^2 * y1 * x2 * x3^3 * y3^2 * d + 1 * x1^2 * y1 * x2 * y2^2 * x3 * y3^2 * d + (-1) * x1^2 * y1 * x2 * y2^2 * x3^3 * y3^2 * d^2 + 1 * x1^2 * y1 * x2^2 * y2 * x3^2 * y3 * d + 1 * x1^2 * y1 * x2^2 * y2 * x3^2 * y3^3 * d^2 + 1 * x1^3 * y2 * x3 + (-1) * x1^3 * y2 * x3 * y3^2 + 1 * x1^3 * y2 * x3^3 + 1 * x1^3 * y2 * x3^3 * y3^2 * d + 1 * x1^3 * x2 * y3 + (-1) * x1^3 * x2 * y3^3 + 1 * x1^3 * x2 * x3^2 * y3 + 1 * x1^3 * x2 * x3^2 * y3^3 * d + (-1) * x1^3 * x2 * y2^2 * x3^2 * y3 * d + (-1) * x1^3 * x2^2 * y2 * x3 * y3^2 * d) * h2
      + ((-1) * y1 * y2 * y3 + 1 * y1 * y2^3 * y3 + (-1) * y1 * x2 * x3 + 1 * y1 * x2 * y2^2 * x3 + (-1) * y1 * x2^2 * y2 * y3 + (-1) * y1 * x2^3 * x3 + 1 * y1^3 * y2 * y3 + (-1) * y1^3 * y2^3 * y3 + 1 * y1^3 * x2 * x3 + (-1) * y1^3 * x2 * y2^2 * x3 + 1 * y1^3 * x2^2 * y2 * y3 + 1 * y1^3 * x2^3 * x3 + (-1) * x1 * y2 * x3 + 1 * x1 * y2^3 * x3 + (-1) * x1 * x2 * y3 + 1 * x1 * x2 * y2^2 * y3 + (-1) * x1 * x2^2 * y2 * x3 + (-1) * x1 * x2^3 * y3 + 1 * x1 * y1^2 * y2 * x3 + (-1) * x1 * y1^2 * y2^3 * x3 + 1 * x1 * y1^2 * x2 * y3 + (-1) * x1 * y1^2 * x2 * y2^2 * y3 + (-1) * x1 * y1^2 * x2 * y2^2 * y3 * d + 1 * x1 * y1^2 * x2^2 * y2 * x3 + 1 * x1 * y1^2 * x2^2 * y2 * x3 * d + 1 * x1 * y1^2 * x2^3 * y3 + (-1) * x1^2 * y1 * y2 * y3 + 1 * x1^2 * y1 * y2^3 * y3 + (-1) * x1^2 * y1 * x2 * x3 + 1 * x1^2 * y1 * x2 * y2^2 * x3 + 1 * x1^2 * y1 * x2 * y2^2 * x3 * d + (-1) * x1^2 * y1 * x2^2 * y2 * y3 + (-1) * x1^2 * y1 * x2^2 * y2 * y3 * d + (-1) * x1^2 * y1 * x2^3 * x3 + (-1) * x1^3 * y2 * x3 + 1 * x1^3 * y2^3 * x3 + (-1) * x1^3 * x2 * y3 + 1 * x1^3 * x2 * y2^2 * y3 + (-1) * x1^3 * x2^2 * y2 * x3 + (-1) * x1^3 * x2^3 * y3) * h3
  rw [← hxa, ← hya, ← hxb, ← hyb] at l1 l2
  constructor
  · apply mul_left_cancel₀ nz
    linear_combination l1
  · apply mul_left_cancel₀ nz
    linear_combination l2

theorem add_assoc' (P Q R : Point K) : add (add P Q) R = add P (add Q R) := by
  have c1 : P.y ^ 2 - P.x ^ 2 - 1 - d * P.x ^ 2 * P.y ^ 2 = 0 := by linear_combination P.on
  have c2 : Q.y ^ 2 - Q.x ^ 2 - 1 - d * Q.x ^ 2 * Q.y ^ 2 = 0 := by linear_combination Q.on
  have c3 : R.y ^ 2 - R.x ^ 2 - 1 - d * R.x ^ 2 * R.y ^ 2 = 0 := by linear_combination R.on
  obtain ⟨g1, g2⟩ := assoc_aux c1 c2 c3 rfl rfl rfl rfl (dp P Q) (dm P Q) (dp Q R) (dm Q R)
    (add_x P Q) (add_y P Q) (add_x Q R) (add_y Q R)
  ext
  · show ((add P Q).x * R.y + (add P Q).y * R.x) / _ = (P.x * (add Q R).y + P.y * (add Q R).x) / _
    rw [div_eq_div_iff (dp _ _) (dp _ _)]
    exact g1
  · show ((add P Q).y * R.y + (add P Q).x * R.x) / _ = (P.y * (add Q R).y + P.x * (add Q R).x) / _
    rw [div_eq_div_iff (dm _ _) (dm _ _)]
    exact g2

theorem add_comm' (P Q : Point K) : add P Q = add Q P := by
  ext
  · show (P.x * Q.y + P.y * Q.x) / _ = (Q.x * P.y + Q.y * P.x) / _
    congr 1 <;> ring
  · show (P.y * Q.y + P.x * Q.x) / _ = (Q.y * P.y + Q.x * P.x) / _
    congr 1 <;> ring

/-- The neutral element (0, 1). -/
def zero : Point K := ⟨0, 1, by ring⟩

/-- The opposite point (-x, y). -/
def neg (P : Point K) : Point K := ⟨-P.x, P.y, by rw [neg_sq]; exact P.on⟩

theorem add_zero' (P : Point K) : add P zero = P := by
  ext
  · simp [add, zero]
  · simp [add, zero]

theorem neg_add' (P : Point K) : add (neg P) P = zero := by
  ext
  · show (-P.x * P.y + P.y * P.x) / _ = 0
    rw [show -P.x * P.y + P.y * P.x = 0 by ring, zero_div]
  · show (P.y * P.y + -P.x * P.x) / _ = 1
    rw [div_eq_one_iff_eq (dm (neg P) P)]
    show _ = 1 - d * -P.x * P.x * P.y * P.y
    linear_combination P.on

instance : Zero (Point K) := ⟨zero⟩
instance : Add (Point K) := ⟨add⟩
instance : Neg (Point K) := ⟨neg⟩

instance : AddCommGroup (Point K) where
  add_assoc := add_assoc'
  zero_add P := by rw [show (0 : Point K) + P = add zero P from rfl, add_comm', add_zero']
  add_zero := add_zero'
  add_comm := add_comm'
  neg_add_cancel := neg_add'
  nsmul := nsmulRec
  zsmul := zsmulRec

theorem zero_x : (0 : Point K).x = 0 := rfl
theorem zero_y : (0 : Point K).y = 1 := rfl
theorem neg_x (P : Point K) : (-P).x = -P.x := rfl
theorem neg_y (P : Point K) : (-P).y = P.y := rfl

end Cardano.Edwards
