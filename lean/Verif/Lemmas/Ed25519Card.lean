import Verif.Spec.Edwards25519
import Verif.Spec.Sodium
import Mathlib.GroupTheory.OrderOfElement
import Mathlib.SetTheory.Cardinal.Finite

/-! # edwards25519 has exactly `8·ℓ` points -/

namespace Cardano.Ed

open Edwards

/-- A point of order 8: `x = sqrt(-1)·y`. -/
def edT8 : EdPt where
  x := (iNat : Fp) * y8
  y := y8
  on := by
    have e8 : (dNat * y8 ^ 4 + 2 * y8 ^ 2) % p25519 = 1 % p25519 := by decide +kernel
    have e8' := (ZMod.natCast_eq_natCast_iff' _ _ _).mpr e8
    push_cast at e8'
    show -((iNat : Fp) * y8) ^ 2 + (y8 : Fp) ^ 2 = 1 + (dNat : Fp) * ((iNat : Fp) * y8) ^ 2 * (y8 : Fp) ^ 2
    have hi := iNat_sq
    have e : ((iNat : Fp) * y8) ^ 2 = -(y8 : Fp) ^ 2 := by rw [mul_pow, hi]; ring
    rw [e]
    linear_combination e8'

theorem edT8_eight : 8 • edT8 = 0 := by
  rw [eight_nsmul]
  apply order8
  have e8 : (dNat * y8 ^ 4 + 2 * y8 ^ 2) % p25519 = 1 % p25519 := by decide +kernel
  have e8' := (ZMod.natCast_eq_natCast_iff' _ _ _).mpr e8
  push_cast at e8'
  exact e8'

theorem zero_y_one : (0 : EdPt).y = 1 := rfl

/-- If `2Q = 0` then `y² = 1`. -/
theorem y_of_two (Q : EdPt) (h : Q + Q = 0) : Q.x * Q.y = 0 := by
  have h1 := dbl_x Q
  rw [h] at h1
  have : (0 : EdPt).x = 0 := rfl
  rw [this, zero_mul] at h1
  have h2 : (2 : Fp) * (Q.x * Q.y) = 0 := by linear_combination -h1
  exact (mul_eq_zero.mp h2).resolve_left two_ne

theorem edT8_four : 4 • edT8 ≠ 0 := by
  rw [show 4 = 2 * 2 by rfl, mul_nsmul, two_nsmul, two_nsmul]
  intro h
  have hxy := y_of_two _ h
  have hx := dbl_x edT8
  have hy := dbl_y edT8
  have hm := dm edT8 edT8
  have hd : (Params.d : Fp) = dNat := rfl
  have hx8 : edT8.x = (iNat : Fp) * y8 := rfl
  have hy8 : edT8.y = (y8 : Fp) := rfl
  have hi := iNat_sq
  -- the doubled point has y = 0
  have hs : edT8.y * edT8.y + edT8.x * edT8.x = 0 := by
    rw [hx8, hy8]; linear_combination (y8 : Fp) ^ 2 * hi
  rw [hs] at hy
  have hy0 : (edT8 + edT8).y = 0 := (mul_eq_zero.mp hy).resolve_right hm
  have on2 := on' (edT8 + edT8)
  rcases mul_eq_zero.mp hxy with h0 | h0
  · rw [h0, hy0] at on2
    apply one_ne_zero (α := Fp)
    linear_combination -on2
  · have h0x : (edT8 + edT8).x ≠ 0 := by
      intro hz
      rw [hz, hy0] at on2
      apply one_ne_zero (α := Fp)
      linear_combination -on2
    -- 2Q = 0 with y = 0 contradicts `dbl_y`
    have hz := dbl_y (edT8 + edT8)
    rw [h, zero_y_one, hy0] at hz
    rw [hy0] at on2
    have h2 : (2 : Fp) = 0 := by linear_combination hz - on2
    exact two_ne h2

theorem addOrder_T8 : addOrderOf edT8 = 8 := by
  have := addOrderOf_eq_prime_pow (p := 2) (n := 2) (x := edT8) edT8_four edT8_eight
  exact this

theorem addOrder_B : addOrderOf edB = ellL :=
  Nat.dvd_antisymm (addOrderOf_dvd_of_nsmul_eq_zero ell_edB) ((order_edB _).mp (addOrderOf_nsmul_eq_zero edB))

/-- A point is determined by its `y` and the parity of its `x`. -/
theorem yParity_inj : Function.Injective (fun P : EdPt => (P.y, (⟨P.x.val % 2, Nat.mod_lt _ (by decide)⟩ : Fin 2))) := by
  intro P Q h
  simp only [Prod.mk.injEq, Fin.mk.injEq] at h
  apply Point.ext
  · rw [← xOf_spec P, ← xOf_spec Q, h.1, h.2]
  · exact h.1

instance : Finite EdPt := Finite.of_injective _ yParity_inj

theorem card_le : Nat.card EdPt ≤ 2 * p25519 := by
  refine le_trans (Nat.card_le_card_of_injective _ yParity_inj) ?_
  rw [Nat.card_prod, Nat.card_eq_fintype_card, Nat.card_eq_fintype_card, ZMod.card, Fintype.card_fin, Nat.mul_comm]

/-- Hasse is not needed: `8·ℓ` divides the number of points, which is at most `2p < 16·ℓ`. -/
theorem edwards25519_card : Nat.card EdPt = 8 * ellL := by
  have h1 : 8 ∣ Nat.card EdPt := addOrder_T8 ▸ addOrderOf_dvd_natCard edT8
  have h2 : ellL ∣ Nat.card EdPt := addOrder_B ▸ addOrderOf_dvd_natCard edB
  have hc : Nat.Coprime 8 ellL := by decide +kernel
  obtain ⟨k, hk⟩ := hc.mul_dvd_of_dvd_of_dvd h1 h2
  have hpos : 0 < Nat.card EdPt := Nat.card_pos
  have hle := card_le
  have hlt : 2 * p25519 < 8 * ellL * 2 := by decide +kernel
  rw [hk] at hle hpos ⊢
  have hk2 : k < 2 := by
    by_contra hcon
    have := Nat.mul_le_mul_left (8 * ellL) (Nat.le_of_not_lt hcon)
    omega
  have hk0 : k ≠ 0 := by rintro rfl; simp at hpos
  have : k = 1 := by omega
  rw [this, Nat.mul_one]

/-- Eight times any point lies in the subgroup of order `ℓ`. -/
theorem ell_eight (P : EdPt) : ellL • (8 • P) = 0 := by
  rw [← mul_nsmul, ← edwards25519_card]
  exact card_nsmul_eq_zero'

/-- Elligator (or any other map onto curve points) followed by multiplication by the cofactor. -/
noncomputable def clearCofactor (f : Bytes → EdPt) : Elligator edwards25519 where
  map b := (8 • f b : EdPt)
  order b := ell_eight (f b)

/-- The identity is on the list of small-order encodings. -/
theorem edSmallOrder_zero : edwards25519.smallOrder (edwards25519.enc 0) = true := by
  show edSmallOrder (edEnc 0) = true
  unfold edSmallOrder
  rw [decide_eq_true_iff, edEnc_y]
  show (1 : Fp).val ∈ _
  rw [ZMod.val_one'' (by decide +kernel)]
  decide +kernel

end Cardano.Ed
