import Mathlib.NumberTheory.LucasPrimality
import Mathlib.FieldTheory.Finite.Basic
import Mathlib.GroupTheory.OrderOfElement
import Verif.Lemmas.EllPrime
import Verif.Lemmas.Edwards

/-! # edwards25519

The curve of RFC 8032, section 5.1: `-x² + y² = 1 + d x² y²` over the integers modulo
`2^255 - 19`, with its base point, as a `Curve`.  Primality, the non-residue `d` and the order
of the base point are evaluated by the kernel. -/

namespace Cardano.Ed

/-- The prime of the field. -/
def p25519 : Nat := 2 ^ 255 - 19

theorem q0_prime : Nat.Prime 1923133 := by
  refine pratt 1923133 2 [2, 2, 3, 43, 3727] (by decide +kernel) (by decide +kernel) (by decide +kernel) ?_ (by decide +kernel) (by decide +kernel)
  simp only [List.forall_mem_cons, List.not_mem_nil, false_imp_iff, implies_true, and_true]
  exact ⟨by norm_num, by norm_num, by norm_num, by norm_num, by norm_num⟩

theorem q1_prime : Nat.Prime 31757755568855353 := by
  refine pratt 31757755568855353 10 [2, 2, 2, 3, 31, 107, 223, 4153, 430751] (by decide +kernel) (by decide +kernel) (by decide +kernel) ?_ (by decide +kernel) (by decide +kernel)
  simp only [List.forall_mem_cons, List.not_mem_nil, false_imp_iff, implies_true, and_true]
  exact ⟨by norm_num, by norm_num, by norm_num, by norm_num, by norm_num, by norm_num, by norm_num, by norm_num, by norm_num⟩

theorem q2_prime : Nat.Prime 2773320623 := by
  refine pratt 2773320623 5 [2, 2437, 569003] (by decide +kernel) (by decide +kernel) (by decide +kernel) ?_ (by decide +kernel) (by decide +kernel)
  simp only [List.forall_mem_cons, List.not_mem_nil, false_imp_iff, implies_true, and_true]
  exact ⟨by norm_num, by norm_num, by norm_num⟩

theorem q3_prime : Nat.Prime 72106336199 := by
  refine pratt 72106336199 7 [2, 13, 2773320623] (by decide +kernel) (by decide +kernel) (by decide +kernel) ?_ (by decide +kernel) (by decide +kernel)
  simp only [List.forall_mem_cons, List.not_mem_nil, false_imp_iff, implies_true, and_true]
  exact ⟨by norm_num, by norm_num, q2_prime⟩

theorem q4_prime : Nat.Prime 8574133 := by
  refine pratt 8574133 2 [2, 2, 3, 7, 103, 991] (by decide +kernel) (by decide +kernel) (by decide +kernel) ?_ (by decide +kernel) (by decide +kernel)
  simp only [List.forall_mem_cons, List.not_mem_nil, false_imp_iff, implies_true, and_true]
  exact ⟨by norm_num, by norm_num, by norm_num, by norm_num, by norm_num, by norm_num⟩

theorem q5_prime : Nat.Prime 1919519569386763 := by
  refine pratt 1919519569386763 2 [2, 3, 7, 19, 47, 47, 127, 8574133] (by decide +kernel) (by decide +kernel) (by decide +kernel) ?_ (by decide +kernel) (by decide +kernel)
  simp only [List.forall_mem_cons, List.not_mem_nil, false_imp_iff, implies_true, and_true]
  exact ⟨by norm_num, by norm_num, by norm_num, by norm_num, by norm_num, by norm_num, by norm_num, q4_prime⟩

theorem q6_prime : Nat.Prime 75445702479781427272750846543864801 := by
  refine pratt 75445702479781427272750846543864801 7 [2, 2, 2, 2, 2, 3, 3, 5, 5, 75707, 72106336199, 1919519569386763] (by decide +kernel) (by decide +kernel) (by decide +kernel) ?_ (by decide +kernel) (by decide +kernel)
  simp only [List.forall_mem_cons, List.not_mem_nil, false_imp_iff, implies_true, and_true]
  exact ⟨by norm_num, by norm_num, by norm_num, by norm_num, by norm_num, by norm_num, by norm_num, by norm_num, by norm_num, by norm_num, q3_prime, q5_prime⟩

theorem q7_prime : Nat.Prime 74058212732561358302231226437062788676166966415465897661863160754340907 := by
  refine pratt 74058212732561358302231226437062788676166966415465897661863160754340907 2 [2, 3, 353, 57467, 132049, 1923133, 31757755568855353, 75445702479781427272750846543864801] (by decide +kernel) (by decide +kernel) (by decide +kernel) ?_ (by decide +kernel) (by decide +kernel)
  simp only [List.forall_mem_cons, List.not_mem_nil, false_imp_iff, implies_true, and_true]
  exact ⟨by norm_num, by norm_num, by norm_num, by norm_num, by norm_num, q0_prime, q1_prime, q6_prime⟩

theorem p25519_prime : Nat.Prime p25519 := by
  refine pratt p25519 2 [2, 2, 3, 65147, 74058212732561358302231226437062788676166966415465897661863160754340907] (by decide +kernel) (by decide +kernel) (by decide +kernel) ?_ (by decide +kernel) (by decide +kernel)
  simp only [List.forall_mem_cons, List.not_mem_nil, false_imp_iff, implies_true, and_true]
  exact ⟨by norm_num, by norm_num, by norm_num, by norm_num, q7_prime⟩

instance : Fact p25519.Prime := ⟨p25519_prime⟩

/-- The field of the curve. -/
abbrev Fp := ZMod p25519

/-- `-121665/121666`. -/
def dNat : Nat := 37095705934669439343138083508754565189542113879843219016388785533085940283555

/-- A square root of -1 (`sqrtm1` in libsodium). -/
def iNat : Nat := 19681161376707505956807079304988542015446066515923890162744021073123829784752

theorem dNat_eq : (dNat : Fp) * 121666 = -121665 := by
  have h : (dNat * 121666 + 121665) % p25519 = 0 := by decide +kernel
  have : ((dNat * 121666 + 121665 : Nat) : Fp) = 0 := (ZMod.natCast_eq_zero_iff _ _).mpr (Nat.dvd_of_mod_eq_zero h)
  push_cast at this
  linear_combination this

theorem iNat_sq : (iNat : Fp) ^ 2 = -1 := by
  have h : (iNat * iNat + 1) % p25519 = 0 := by decide +kernel
  have : ((iNat * iNat + 1 : Nat) : Fp) = 0 := (ZMod.natCast_eq_zero_iff _ _).mpr (Nat.dvd_of_mod_eq_zero h)
  push_cast at this
  linear_combination this

theorem two_ne : (2 : Fp) ≠ 0 := by
  intro h
  have : ((2 : Nat) : Fp) = 0 := by exact_mod_cast h
  rw [ZMod.natCast_eq_zero_iff] at this
  exact absurd (Nat.le_of_dvd (by norm_num) this) (by decide +kernel)

theorem dNat_nonsquare : ¬ IsSquare (dNat : Fp) := by
  rintro ⟨r, hr⟩
  have e : powMod 256 dNat ((p25519 - 1) / 2) p25519 1 % p25519 = p25519 - 1 := by decide +kernel
  rw [powMod_eq p25519 256 dNat _ 1 (by decide +kernel), Nat.one_mul] at e
  have e2 : ((dNat ^ ((p25519 - 1) / 2) : Nat) : Fp) = ((p25519 - 1 : Nat) : Fp) :=
    (ZMod.natCast_eq_natCast_iff' _ _ _).mpr (by rw [e, Nat.mod_eq_of_lt (by decide +kernel)])
  push_cast at e2
  rw [Nat.cast_sub (by decide +kernel), ZMod.natCast_self, Nat.cast_one, zero_sub] at e2
  have r0 : r ≠ 0 := by
    rintro rfl
    rw [hr, mul_zero, zero_pow (by decide +kernel)] at e2
    have : (1 : Fp) = 0 := by linear_combination e2
    exact one_ne_zero this
  have f := ZMod.pow_card_sub_one_eq_one r0
  have e3 : (dNat : Fp) ^ ((p25519 - 1) / 2) = r ^ (p25519 - 1) := by
    rw [hr, ← pow_two, ← pow_mul]
    congr 1
  rw [e3, f] at e2
  apply two_ne
  linear_combination e2

instance : Edwards.Params Fp where
  d := dNat
  i := iNat
  i_sq := iNat_sq
  d_nonsquare := dNat_nonsquare
  two_ne_zero := two_ne

/-- Points of edwards25519. -/
abbrev EdPt := Edwards.Point Fp

/-- Coordinates of the base point. -/
def bxNat : Nat := 15112221349535400772501151409588531511454012693041857206046113283949847762202
/-- see `bxNat` -/
def byNat : Nat := 46316835694926478169428394003475163141307993866256225615783033603165251855960

/-- The base point: `y = 4/5` and `x` even. -/
def edB : EdPt where
  x := bxNat
  y := byNat
  on := by
    have h : (byNat * byNat) % p25519 = (bxNat * bxNat + 1 + dNat * (bxNat * bxNat) * (byNat * byNat)) % p25519 := by decide +kernel
    have := (ZMod.natCast_eq_natCast_iff' _ _ _).mpr h
    push_cast at this
    show -(bxNat : Fp) ^ 2 + (byNat : Fp) ^ 2 = 1 + (dNat : Fp) * (bxNat : Fp) ^ 2 * (byNat : Fp) ^ 2
    linear_combination this

/-! ### The order of the base point -/

/-- Projective addition on numbers (Bernstein-Birkner-Joye-Lange-Peters, "add-2008-bbjlp"). -/
def pF (X Y Z X' Y' Z' : Nat) : Nat := ((Z * Z' % p25519) ^ 2 + (p25519 - dNat * (X * X' % p25519) % p25519 * (Y * Y' % p25519) % p25519)) % p25519
/-- see `pF` -/
def pG (X Y Z X' Y' Z' : Nat) : Nat := ((Z * Z' % p25519) ^ 2 + dNat * (X * X' % p25519) % p25519 * (Y * Y' % p25519) % p25519) % p25519
/-- see `pF` -/
def pX (X Y Z X' Y' Z' : Nat) : Nat := Z * Z' % p25519 * pF X Y Z X' Y' Z' % p25519 * (X * Y' + Y * X') % p25519
/-- see `pF` -/
def pY (X Y Z X' Y' Z' : Nat) : Nat := Z * Z' % p25519 * pG X Y Z X' Y' Z' % p25519 * (Y * Y' + X * X') % p25519
/-- see `pF` -/
def pZ (X Y Z X' Y' Z' : Nat) : Nat := pF X Y Z X' Y' Z' * pG X Y Z X' Y' Z' % p25519

/-- Projective coordinates of a point. -/
def Rep (P : EdPt) (X Y Z : Nat) : Prop := (Z : Fp) ≠ 0 ∧ P.x * Z = X ∧ P.y * Z = Y

theorem cast_mod (n : Nat) : ((n % p25519 : Nat) : Fp) = n := ZMod.natCast_mod n p25519

theorem rep_add {P Q : EdPt} {X Y Z X' Y' Z' : Nat} (h : Rep P X Y Z) (h' : Rep Q X' Y' Z') :
    Rep (P + Q) (pX X Y Z X' Y' Z') (pY X Y Z X' Y' Z') (pZ X Y Z X' Y' Z') := by
  obtain ⟨z0, hx, hy⟩ := h
  obtain ⟨z0', hx', hy'⟩ := h'
  have hp := Edwards.dp P Q
  have hm := Edwards.dm P Q
  have ax := Edwards.add_x P Q
  have ay := Edwards.add_y P Q
  have hd : (Edwards.Params.d : Fp) = dNat := rfl
  rw [hd] at hp hm ax ay
  have eF : ((pF X Y Z X' Y' Z' : Nat) : Fp) = (Z * Z' : Fp) ^ 2 * (1 - dNat * P.x * Q.x * P.y * Q.y) := by
    unfold pF
    rw [cast_mod, Nat.cast_add, Nat.cast_sub (Nat.le_of_lt (Nat.mod_lt _ (by decide +kernel))), ZMod.natCast_self]
    simp only [cast_mod, Nat.cast_mul, Nat.cast_pow]
    rw [← hx, ← hy, ← hx', ← hy']
    ring
  have eG : ((pG X Y Z X' Y' Z' : Nat) : Fp) = (Z * Z' : Fp) ^ 2 * (1 + dNat * P.x * Q.x * P.y * Q.y) := by
    unfold pG
    simp only [cast_mod, Nat.cast_mul, Nat.cast_pow, Nat.cast_add]
    rw [← hx, ← hy, ← hx', ← hy']
    ring
  have hzz : (Z * Z' : Fp) ≠ 0 := mul_ne_zero z0 z0'
  refine ⟨?_, ?_, ?_⟩
  · unfold pZ
    rw [cast_mod, Nat.cast_mul, eF, eG]
    exact mul_ne_zero (mul_ne_zero (pow_ne_zero _ hzz) hm) (mul_ne_zero (pow_ne_zero _ hzz) hp)
  · unfold pZ pX
    simp only [cast_mod, Nat.cast_mul, Nat.cast_add, eF, eG]
    rw [← hx, ← hy, ← hx', ← hy']
    show (Edwards.add P Q).x * _ = _
    linear_combination ((Z * Z' : Fp) ^ 4 * (1 - dNat * P.x * Q.x * P.y * Q.y)) * ax
  · unfold pZ pY
    simp only [cast_mod, Nat.cast_mul, Nat.cast_add, eF, eG]
    rw [← hx, ← hy, ← hx', ← hy']
    show (Edwards.add P Q).y * _ = _
    linear_combination ((Z * Z' : Fp) ^ 4 * (1 + dNat * P.x * Q.x * P.y * Q.y)) * ay

/-- Is `acc + n • base` the neutral element?  Double and add. -/
def mulIsZero : (fuel n X Y Z X' Y' Z' : Nat) → Bool
  | 0, _, _, _, _, X', Y', Z' => Nat.beq (X' % p25519) 0 && Nat.beq (Y' % p25519) (Z' % p25519)
  | f + 1, n, X, Y, Z, X', Y', Z' =>
    bif Nat.beq (n % 2) 1 then
      mulIsZero f (n / 2) (pX X Y Z X Y Z) (pY X Y Z X Y Z) (pZ X Y Z X Y Z)
        (pX X' Y' Z' X Y Z) (pY X' Y' Z' X Y Z) (pZ X' Y' Z' X Y Z)
    else mulIsZero f (n / 2) (pX X Y Z X Y Z) (pY X Y Z X Y Z) (pZ X Y Z X Y Z) X' Y' Z'

theorem mulIsZero_spec : ∀ (f n : Nat) (P Q : EdPt) (X Y Z X' Y' Z' : Nat), n < 2 ^ f → Rep P X Y Z → Rep Q X' Y' Z' →
    mulIsZero f n X Y Z X' Y' Z' = true → Q + n • P = 0 := by
  intro f
  induction f with
  | zero =>
    intro n P Q X Y Z X' Y' Z' hn hP hQ h
    obtain rfl : n = 0 := by simpa using hn
    rw [zero_nsmul, add_zero]
    simp only [mulIsZero, Bool.and_eq_true, Nat.beq_eq] at h
    obtain ⟨z0, hx, hy⟩ := hQ
    have h1 : ((X' : Nat) : Fp) = 0 := by rw [← cast_mod, h.1]; rfl
    have h2 : ((Y' : Nat) : Fp) = ((Z' : Nat) : Fp) := by rw [← cast_mod Y', h.2, cast_mod]
    rw [h1] at hx
    rw [h2] at hy
    apply Edwards.Point.ext
    · exact (mul_eq_zero.mp hx).resolve_right z0
    · exact mul_right_cancel₀ z0 (by rw [hy]; show _ = (1 : Fp) * _; rw [one_mul])
  | succ f ih =>
    intro n P Q X Y Z X' Y' Z' hn hP hQ h
    have h2 := rep_add hP hP
    have hn2 : n / 2 < 2 ^ f := by rw [pow_succ] at hn; omega
    have e : n • P = (n % 2) • P + (n / 2) • (P + P) := by
      rw [← two_nsmul, ← mul_nsmul', ← add_nsmul]
      congr 1; omega
    rw [mulIsZero] at h
    cases hb : Nat.beq (n % 2) 1 with
    | true =>
      rw [hb, cond_true] at h
      have h1 := Nat.eq_of_beq_eq_true hb
      have := ih _ _ _ _ _ _ _ _ _ hn2 h2 (rep_add hQ hP) h
      rw [e, h1, one_nsmul, ← add_assoc]
      exact this
    | false =>
      rw [hb, cond_false] at h
      have h1 : n % 2 = 0 := by
        have := Nat.ne_of_beq_eq_false hb
        omega
      have := ih _ _ _ _ _ _ _ _ _ hn2 h2 hQ h
      rw [e, h1, zero_nsmul, zero_add]
      exact this

theorem ell_edB : ellL • edB = 0 := by
  have hB : Rep edB bxNat byNat 1 := ⟨by rw [Nat.cast_one]; exact one_ne_zero, by rw [Nat.cast_one, mul_one]; rfl, by rw [Nat.cast_one, mul_one]; rfl⟩
  have h0 : Rep 0 0 1 1 := ⟨by rw [Nat.cast_one]; exact one_ne_zero, by rw [Edwards.zero_x, zero_mul, Nat.cast_zero],
    by rw [Edwards.zero_y, one_mul]⟩
  have := mulIsZero_spec 253 ellL edB 0 _ _ _ _ _ _ (by decide +kernel) hB h0 (by decide +kernel)
  rwa [zero_add] at this

theorem edB_ne_zero : edB ≠ 0 := by
  intro h
  have h1 : (bxNat : Fp) = 0 := congrArg Edwards.Point.x h
  rw [ZMod.natCast_eq_zero_iff] at h1
  exact absurd (Nat.mod_eq_zero_of_dvd h1) (by decide +kernel)

/-- The base point has order exactly ℓ. -/
theorem order_edB (n : Nat) : n • edB = 0 ↔ ellL ∣ n := by
  rw [← addOrderOf_dvd_iff_nsmul_eq_zero, addOrderOf_eq_prime ell_edB edB_ne_zero]

end Cardano.Ed
