import Mathlib.Algebra.Polynomial.Eval.Defs
import Mathlib.Algebra.Polynomial.Degree.Defs
import Verif.Spec.Ed25519

/-! # Shamir sharing over the scalar field -/

namespace Cardano.Spec.Tss

open Cardano.Ed Polynomial

/-- `c₀ + c₁ x + c₂ x² + …`. -/
noncomputable def ofCoeffs : List (ZMod ellL) → (ZMod ellL)[X]
  | [] => 0
  | c :: cs => C c + X * ofCoeffs cs

/-- A list of weights interpolates at 0 from the points `ids`: for every polynomial `f` of
degree below their number, `f(0) = Σ wᵢ f(idᵢ)`. -/
def InterpolatesAtZero (ids : List Nat) (w : List (ZMod ellL)) : Prop :=
  w.length = ids.length ∧
  ∀ f : (ZMod ellL)[X], f.degree < ids.length →
    (List.zipWith (fun (x : Nat) wi => wi * f.eval (x : ZMod ellL)) ids w).sum = f.eval 0

end Cardano.Spec.Tss
