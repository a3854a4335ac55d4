import Verif.Lemmas.Ed25519Card
import Verif.Lemmas.EdFast
import Verif.Spec.Sodium
import Mathlib.NumberTheory.LegendreSymbol.Basic

/-! # The hash-to-curve map of ECVRF-ED25519-SHA512-Elligator2

draft-irtf-cfrg-vrf-03, 5.4.1.2, as in libsodium's `ge25519_from_uniform` (sign bit cleared by its caller): Elligator2 on
Curve25519 `v² = u³ + 486662 u² + u`, the birational map to edwards25519, multiplication by the cofactor.
The theorems about VRF proofs hold for every map into the prime-order subgroup; this is the one in use. -/

namespace Cardano.Ed

open Edwards Cardano.Spec

/-- The coefficient of Curve25519. -/
def montA : Nat := 486662

/-- The right-hand side of the equation of Curve25519. -/
def mont (u : Fp) : Fp := u ^ 3 + montA * u ^ 2 + u

/-- Elligator2: the `u` coordinate of a point of Curve25519. -/
noncomputable def ellU (r : Fp) : Fp :=
  open Classical in
  if IsSquare (mont (-montA / (1 + 2 * r ^ 2))) then -montA / (1 + 2 * r ^ 2) else montA / (1 + 2 * r ^ 2) - montA

/-- The `y` coordinate of that point on edwards25519. -/
noncomputable def ellY (r : Fp) : Fp := (ellU r - 1) / (ellU r + 1)

/-- Elligator2 with cofactor clearing, given the map on field elements (as numbers). -/
def elligOn (C : Curve) (y : Nat → Nat) (h : ∀ P : C.Pt, ellL • (8 • P) = 0) : Elligator C where
  map b := match C.dec (le32 (y (leNat b % 2 ^ 255))) with
    | some P => 8 • P
    | none => 0
  order b := by
    split
    · exact h _
    · exact smul_zero _

theorem elligOn_map (C : Curve) (y : Nat → Nat) (h : ∀ P : C.Pt, ellL • (8 • P) = 0) (b : Bytes) (P : C.Pt)
    (hP : C.dec (le32 (y (leNat b % 2 ^ 255))) = some P) : (elligOn C y h).map b = 8 • P := by
  show (match C.dec (le32 (y (leNat b % 2 ^ 255))) with | some P => 8 • P | none => 0) = _
  rw [hP]

/-- Elligator2 for edwards25519. -/
noncomputable def elligator : Elligator edwards25519 := elligOn edwards25519 (fun n => (ellY (n : Fp)).val) ell_eight

/-! ### It never fails -/

theorem nonsquare_of {n : Nat} (h0 : (n : Fp) ≠ 0) (h : powFp n ((p25519 - 1) / 2) % p25519 = p25519 - 1) : ¬ IsSquare (n : Fp) := by
  rintro ⟨r, hr⟩
  have hr0 : r ≠ 0 := by rintro rfl; exact h0 (by rw [hr, mul_zero])
  have h1 : ((n : Fp)) ^ ((p25519 - 1) / 2) = 1 := by
    rw [hr, ← pow_two, ← pow_mul, show 2 * ((p25519 - 1) / 2) = p25519 - 1 by decide +kernel]
    exact ZMod.pow_card_sub_one_eq_one hr0
  rw [← powFp_spec, ← cast_mod, h, Nat.cast_sub (by decide +kernel), ZMod.natCast_self, zero_sub, Nat.cast_one] at h1
  have : (2 : Fp) = 0 := by linear_combination -h1
  exact two_ne this

theorem montA_ne : (montA : Fp) ≠ 0 := by
  intro h
  rw [ZMod.natCast_eq_zero_iff] at h
  exact absurd (Nat.le_of_dvd (by decide) h) (by decide +kernel)

theorem two_nonsquare : ¬ IsSquare (2 : Fp) := by
  have := @nonsquare_of 2 (by rw [Nat.cast_ofNat]; exact two_ne) (by decide +kernel)
  simpa using this

theorem ellDen_ne (r : Fp) : 1 + 2 * r ^ 2 ≠ 0 := by
  intro h
  have hr : r ≠ 0 := by rintro rfl; simp at h
  apply two_nonsquare
  refine ⟨iNat / r, ?_⟩
  rw [div_mul_div_comm, eq_div_iff (mul_ne_zero hr hr)]
  linear_combination h - iNat_sq

/-- `u² + A u + 1` has no root. -/
theorem quad_ne (u : Fp) : u ^ 2 + montA * u + 1 ≠ 0 := by
  intro h
  have hn : (montA ^ 2 - 4 : Nat) = 236839902240 := by decide
  have := @nonsquare_of 236839902240 (by
      intro h
      rw [ZMod.natCast_eq_zero_iff] at h
      exact absurd (Nat.le_of_dvd (by decide) h) (by decide +kernel)) (by decide +kernel)
  apply this
  refine ⟨2 * u + montA, ?_⟩
  have e : ((236839902240 : Nat) : Fp) = (montA : Fp) ^ 2 - 4 := by
    rw [← hn, Nat.cast_sub (by decide)]
    push_cast; ring
  rw [e]
  linear_combination -4 * h

theorem nonsquare_mul {a b : Fp} (ha : ¬ IsSquare a) (hb : ¬ IsSquare b) : IsSquare (a * b) := by
  have a0 : a ≠ 0 := by rintro rfl; exact ha ⟨0, by simp⟩
  have b0 : b ≠ 0 := by rintro rfl; exact hb ⟨0, by simp⟩
  have h1 := (ZMod.pow_div_two_eq_neg_one_or_one p25519 a0).resolve_left (fun h => ha ((ZMod.euler_criterion p25519 a0).mpr h))
  have h2 := (ZMod.pow_div_two_eq_neg_one_or_one p25519 b0).resolve_left (fun h => hb ((ZMod.euler_criterion p25519 b0).mpr h))
  apply (ZMod.euler_criterion p25519 (mul_ne_zero a0 b0)).mpr
  rw [mul_pow, h1, h2]; ring

/-- Elligator2 gives points of Curve25519. -/
theorem ellU_on (r : Fp) : IsSquare (mont (ellU r)) := by
  have hd := ellDen_ne r
  unfold ellU
  split
  · assumption
  · rename_i hns
    obtain ⟨u, hu⟩ : ∃ u : Fp, u = -montA / (1 + 2 * r ^ 2) := ⟨_, rfl⟩
    have e1 : u * (1 + 2 * r ^ 2) = -montA := by rw [hu, div_mul_cancel₀ _ hd]
    have e2 : (montA : Fp) / (1 + 2 * r ^ 2) - montA = -u - montA := by rw [hu]; ring
    rw [e2]
    rw [← hu] at hns
    obtain ⟨t, ht⟩ := nonsquare_mul two_nonsquare hns
    refine ⟨r * t, ?_⟩
    have e3 : -u - montA = 2 * r ^ 2 * u := by linear_combination -e1
    have e4 : mont (-u - montA) = (-u - montA) * (u ^ 2 + montA * u + 1) := by unfold mont; ring
    rw [e4, e3]
    have e5 : mont u = u * (u ^ 2 + montA * u + 1) := by unfold mont; ring
    rw [e5] at ht
    linear_combination r ^ 2 * ht

theorem ellU_ne (r : Fp) : ellU r + 1 ≠ 0 := by
  intro h
  have hs := ellU_on r
  rw [eq_neg_of_add_eq_zero_left h] at hs
  have := @nonsquare_of 486660 (by
      intro h
      rw [ZMod.natCast_eq_zero_iff] at h
      exact absurd (Nat.le_of_dvd (by decide) h) (by decide +kernel)) (by decide +kernel)
  apply this
  have e : mont (-1) = ((486660 : Nat) : Fp) := by
    unfold mont montA; push_cast; ring
  rw [← e]; exact hs

/-- `-(A + 2)` is a square; this is its root. -/
def rootA2 : Nat := 6853475219497561581579357271197624642482790079785650197046958215289687604742

theorem rootA2_sq : (rootA2 : Fp) ^ 2 = -(montA + 2) := by
  have h : (rootA2 * rootA2 + (montA + 2)) % p25519 = 0 := by decide +kernel
  have : ((rootA2 * rootA2 + (montA + 2) : Nat) : Fp) = 0 := (ZMod.natCast_eq_zero_iff _ _).mpr (Nat.dvd_of_mod_eq_zero h)
  push_cast at this
  linear_combination this

theorem d_montA : (dNat : Fp) * (montA + 2) = -(montA - 2) := by
  have h : (dNat * (montA + 2) + (montA - 2)) % p25519 = 0 := by decide +kernel
  have : ((dNat * (montA + 2) + (montA - 2) : Nat) : Fp) = 0 := (ZMod.natCast_eq_zero_iff _ _).mpr (Nat.dvd_of_mod_eq_zero h)
  rw [Nat.cast_add, Nat.cast_sub (by decide)] at this
  push_cast at this
  linear_combination this

/-- There is a point of edwards25519 with this `y`. -/
theorem ellY_point (r : Fp) : ∃ P : EdPt, P.y = ellY r := by
  have h1 := ellU_ne r
  obtain ⟨v, hv⟩ := ellU_on r
  unfold ellY
  generalize ellU r = u at h1 hv
  have hd : (Params.d : Fp) = dNat := rfl
  by_cases hu : u = 0
  · exact ⟨⟨0, (u - 1) / (u + 1), by rw [hu]; simp⟩, rfl⟩
  · have hv0 : v ≠ 0 := by
      rintro rfl
      have : u * (u ^ 2 + montA * u + 1) = 0 := by rw [mont] at hv; linear_combination hv
      exact (mul_ne_zero hu (quad_ne u)) this
    refine ⟨⟨rootA2 * u / v, (u - 1) / (u + 1), ?_⟩, rfl⟩
    have hA : ((montA : Fp) + 2) ≠ 0 := by
      intro h
      have h' : ((montA + 2 : Nat) : Fp) = 0 := by push_cast; exact h
      rw [ZMod.natCast_eq_zero_iff] at h'
      exact absurd (Nat.le_of_dvd (by decide) h') (by decide +kernel)
    rw [hd]
    have hr := rootA2_sq
    have hdm := d_montA
    rw [mont] at hv
    rw [div_pow, div_pow, mul_pow, hr]
    have hv2 : v ^ 2 ≠ 0 := pow_ne_zero _ hv0
    have hu2 : (u + 1) ^ 2 ≠ 0 := pow_ne_zero _ h1
    rw [← sub_eq_zero]
    have hdd : (dNat : Fp) = -(montA - 2) / (montA + 2) := by rw [eq_div_iff hA, hdm]
    rw [hdd]
    field_simp
    rw [pow_two v, ← hv]
    ring

theorem dec_y (P : EdPt) : ∃ Q : EdPt, edDec (le32 P.y.val) = some Q := by
  by_cases hx : P.x.val % 2 = 0
  · refine ⟨P, ?_⟩
    have := edDec_edEnc P
    unfold edEnc at this
    rw [hx, mul_zero, add_zero] at this
    exact this
  · by_cases h0 : P.x = 0
    · rw [h0] at hx; simp at hx
    · have hp := parity_neg P.x h0
      refine ⟨-P, ?_⟩
      have := edDec_edEnc (-P)
      unfold edEnc at this
      have ex : (-P).x = -P.x := rfl
      have ey : (-P).y = P.y := rfl
      have hx' : (-P.x).val % 2 = 0 := by
        have := Nat.mod_lt (-P.x).val (show 2 > 0 by decide)
        have := Nat.mod_lt P.x.val (show 2 > 0 by decide)
        omega
      rw [ex, ey, hx', mul_zero, add_zero] at this
      exact this

theorem edwards25519_dec (b : Bytes) : edwards25519.dec b = edDec b := rfl

/-- Hashing to the curve always finds a point: libsodium's `abort()` is not reached. -/
theorem elligator_total (b : Bytes) : ∃ P : edwards25519.Pt,
    edwards25519.dec (le32 (ellY ((leNat b % 2 ^ 255 : Nat) : Fp)).val) = some P ∧ elligator.map b = 8 • P := by
  obtain ⟨P, hP⟩ := ellY_point ((leNat b % 2 ^ 255 : Nat) : Fp)
  obtain ⟨Q, hQ⟩ := dec_y P
  rw [hP] at hQ
  have hQ' : edwards25519.dec (le32 (ellY ((leNat b % 2 ^ 255 : Nat) : Fp)).val) = some Q :=
    (edwards25519_dec _).trans hQ
  have h := elligOn_map edwards25519 (fun n => (ellY (n : Fp)).val) ell_eight b Q
  beta_reduce at h
  refine ⟨Q, hQ', ?_⟩
  unfold elligator
  exact h hQ'

/-! ### Ready to run -/

/-- `ellY` on numbers. -/
def ellYFast (r : Nat) : Nat :=
  force (powFp ((1 + 2 * (r * r)) % p25519) (p25519 - 2)) fun w =>
    force (montA * w % p25519) fun m => force ((p25519 - m) % p25519) fun u =>
      force (u * u % p25519) fun u2 => force ((u2 * u + montA * u2 + u) % p25519) fun e =>
        force (bif Nat.beq (powFp e ((p25519 - 1) / 2) % p25519) (p25519 - 1) then (m + (p25519 - montA)) % p25519 else u) fun x =>
          (x + (p25519 - 1)) * powFp (x + 1) (p25519 - 2) % p25519

theorem inv_pow (a : Fp) : a ^ (p25519 - 2) = a⁻¹ := by
  by_cases h : a = 0
  · rw [h, inv_zero, zero_pow (by decide +kernel)]
  · apply eq_inv_of_mul_eq_one_left
    rw [← pow_succ, show p25519 - 2 + 1 = p25519 - 1 by decide +kernel]
    exact ZMod.pow_card_sub_one_eq_one h

theorem cast_neg_one : ((p25519 - 1 : Nat) : Fp) = -1 := by
  rw [Nat.cast_sub (by decide +kernel), ZMod.natCast_self, Nat.cast_one, zero_sub]

theorem beq_nonsquare (e : Nat) (h0 : (e : Fp) ≠ 0) :
    Nat.beq (powFp e ((p25519 - 1) / 2) % p25519) (p25519 - 1) = true ↔ ¬ IsSquare (e : Fp) := by
  have hh : (p25519 - 1) / 2 = p25519 / 2 := by decide +kernel
  rw [Nat.beq_eq]
  constructor
  · exact nonsquare_of h0
  · intro h
    have h1 := (ZMod.pow_div_two_eq_neg_one_or_one p25519 h0).resolve_left (fun h' => h ((ZMod.euler_criterion p25519 h0).mpr h'))
    rw [← hh, ← powFp_spec, ← cast_neg_one] at h1
    have := (ZMod.natCast_eq_natCast_iff' _ _ _).mp h1
    rw [this, Nat.mod_eq_of_lt (by decide +kernel)]

theorem ellYFast_eq (r : Nat) : ellYFast r = (ellY (r : Fp)).val := by
  obtain ⟨m, hm⟩ : ∃ m, m = montA * powFp ((1 + 2 * (r * r)) % p25519) (p25519 - 2) % p25519 := ⟨_, rfl⟩
  obtain ⟨u, hu⟩ : ∃ u, u = (p25519 - m) % p25519 := ⟨_, rfl⟩
  obtain ⟨e, he⟩ : ∃ e, e = (u * u % p25519 * u + montA * (u * u % p25519) + u) % p25519 := ⟨_, rfl⟩
  obtain ⟨x, hx⟩ : ∃ x, x = (bif Nat.beq (powFp e ((p25519 - 1) / 2) % p25519) (p25519 - 1) then (m + (p25519 - montA)) % p25519 else u) :=
    ⟨_, rfl⟩
  have hfast : ellYFast r = (x + (p25519 - 1)) * powFp (x + 1) (p25519 - 2) % p25519 := by
    rw [hx, he, hu, hm]; unfold ellYFast; simp only [force_eq]
  have hd := ellDen_ne (r : Fp)
  have cm : (m : Fp) = montA / (1 + 2 * (r : Fp) ^ 2) := by
    rw [hm, cast_mod, Nat.cast_mul, powFp_spec, inv_pow, cast_mod, div_eq_mul_inv]
    push_cast; rw [pow_two]
  have hml : m ≤ p25519 := by rw [hm]; exact (Nat.mod_lt _ (by decide +kernel)).le
  have cu : (u : Fp) = -montA / (1 + 2 * (r : Fp) ^ 2) := by
    rw [hu, cast_mod, Nat.cast_sub hml, ZMod.natCast_self, cm]; ring
  have ce : (e : Fp) = mont u := by
    rw [he, cast_mod]
    simp only [Nat.cast_add, Nat.cast_mul, cast_mod, mont]
    ring
  have u0 : (u : Fp) ≠ 0 := by rw [cu]; exact div_ne_zero (neg_ne_zero.mpr montA_ne) hd
  have e0 : (e : Fp) ≠ 0 := by
    rw [ce, show mont (u : Fp) = u * ((u : Fp) ^ 2 + montA * u + 1) by unfold mont; ring]
    exact mul_ne_zero u0 (quad_ne _)
  have hb := beq_nonsquare e e0
  have cx : (x : Fp) = ellU r := by
    unfold ellU
    rw [← cu, ← ce]
    split
    · rename_i hs
      have : Nat.beq (powFp e ((p25519 - 1) / 2) % p25519) (p25519 - 1) = false := by
        rw [Bool.eq_false_iff]; intro h; exact hb.mp h hs
      rw [hx, this, cond_false]
    · rename_i hs
      rw [hx, hb.mpr hs, cond_true, cast_mod, Nat.cast_add, Nat.cast_sub (by decide +kernel), ZMod.natCast_self, cm]; ring
  have cy : ((ellYFast r : Nat) : Fp) = ellY r := by
    rw [hfast, cast_mod, Nat.cast_mul, powFp_spec, inv_pow, Nat.cast_add, cast_neg_one, ellY, div_eq_mul_inv]
    push_cast
    rw [cx]; ring
  rw [← cy, ZMod.val_natCast, hfast, Nat.mod_mod]

theorem ell_eight_fast (P : edFast.Pt) : ellL • (8 • P) = 0 := by
  have h : ∀ C : Curve, C = edwards25519 → ∀ P : C.Pt, ellL • (8 • P) = 0 := by
    rintro C rfl P; exact ell_eight P
  exact h _ edFast_eq P

/-- `elligator`, ready to run. -/
def elligatorFast : Elligator edFast := elligOn edFast ellYFast ell_eight_fast

theorem elligOn_congr {α : Type} (f : (C : Curve) → Elligator C → α) (C D : Curve) (y z : Nat → Nat) (hC : ∀ P : C.Pt, ellL • (8 • P) = 0)
    (hD : ∀ P : D.Pt, ellL • (8 • P) = 0) (e : C = D) (hy : y = z) : f C (elligOn C y hC) = f D (elligOn D z hD) := by
  subst e; subst hy; rfl

/-- Whatever is computed with the curve and the map can be computed with their runnable forms. -/
theorem elligatorFast_eq {α : Type} (f : (C : Curve) → Elligator C → α) : f edFast elligatorFast = f edwards25519 elligator :=
  elligOn_congr f _ _ _ _ _ _ edFast_eq (funext ellYFast_eq)

end Cardano.Ed
