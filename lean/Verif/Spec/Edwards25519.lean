import Verif.Lemmas.Ed25519Curve
import Mathlib.Data.ZMod.ValMinAbs

/-! # edwards25519 as a `Curve`

Point encoding of RFC 8032 (5.1.2) and the decoder and tests of libsodium
(`ge25519_frombytes`, `ge25519_is_on_curve`, `ge25519_is_canonical`, `ge25519_has_small_order`).
All theorems about "every curve" hold in particular of this one. -/

namespace Cardano.Ed

open Edwards

/-- RFC 8032, 5.1.2: little-endian `y`, the parity of `x` in the top bit. -/
def edEnc (P : EdPt) : Bytes := le32 (P.y.val + 2 ^ 255 * (P.x.val % 2))

/-- The square root step of `ge25519_frombytes`: `c = u v³ (u v⁷)^((p-5)/8)`, multiplied by
`sqrtm1` if it does not fit. -/
noncomputable def rootOf (y : Fp) : Fp :=
  let u := y ^ 2 - 1
  let v := dNat * y ^ 2 + 1
  let c := u * v ^ 3 * (u * v ^ 7) ^ ((p25519 - 5) / 8)
  if c ^ 2 * v = u then c else c * iNat

/-- The `x` of `ge25519_frombytes`, with the parity asked for. -/
noncomputable def xOf (y : Fp) (sign : Nat) : Fp :=
  if (rootOf y).val % 2 = sign then rootOf y else -rootOf y

/-- `ge25519_frombytes` followed by the on-curve test. -/
noncomputable def edDec (b : Bytes) : Option EdPt :=
  let y : Fp := ((leNat b % 2 ^ 255 : Nat) : Fp)
  let x := xOf y (leNat b / 2 ^ 255 % 2)
  if h : b.length = 32 ∧ -x ^ 2 + y ^ 2 = 1 + Params.d * x ^ 2 * y ^ 2 then some ⟨x, y, h.2⟩ else none

/-- `ge25519_is_canonical`: the encoded `y` is below the prime. -/
def edCanonical (b : Bytes) : Bool := decide (leNat b % 2 ^ 255 < p25519)

/-- The `y` coordinates of the points of order 8. -/
def y8 : Nat := 2707385501144840649318225287225658788936804267575313519463743609750303402022

/-- `ge25519_has_small_order`: the black list, sign bit ignored. -/
def edSmallOrder (b : Bytes) : Bool :=
  decide (leNat b % 2 ^ 255 ∈ [0, 1, y8, p25519 - y8, p25519 - 1, p25519, p25519 + 1])

theorem p_lt : p25519 < 2 ^ 255 := by decide +kernel

theorem val_lt (a : Fp) : a.val < 2 ^ 255 := lt_trans (ZMod.val_lt a) p_lt

theorem edEnc_nat (P : EdPt) : leNat (edEnc P) = P.y.val + 2 ^ 255 * (P.x.val % 2) := by
  unfold edEnc
  rw [leNat_le32]
  have h1 := val_lt P.y
  have h2 : P.x.val % 2 < 2 := Nat.mod_lt _ (by decide)
  have : (2 : Nat) ^ 256 = 2 ^ 255 * 2 := by rw [← pow_succ]
  nlinarith

theorem edEnc_y (P : EdPt) : leNat (edEnc P) % 2 ^ 255 = P.y.val := by
  rw [edEnc_nat, Nat.add_mul_mod_self_left, Nat.mod_eq_of_lt (val_lt _)]

theorem edEnc_sign (P : EdPt) : leNat (edEnc P) / 2 ^ 255 % 2 = P.x.val % 2 := by
  rw [edEnc_nat, Nat.add_mul_div_left _ _ (by positivity), Nat.div_eq_of_lt (val_lt _), zero_add, Nat.mod_mod]

theorem v_ne_zero (y : Fp) : (dNat : Fp) * y ^ 2 + 1 ≠ 0 := by
  intro h
  have hy : y ≠ 0 := by
    rintro rfl
    simp at h
  apply dNat_nonsquare
  refine ⟨iNat / y, ?_⟩
  rw [div_mul_div_comm, eq_div_iff (mul_ne_zero hy hy)]
  linear_combination h - iNat_sq

/-- The square root step finds a root whenever there is one. -/
theorem rootOf_spec (P : EdPt) : rootOf P.y = P.x ∨ rootOf P.y = -P.x := by
  obtain ⟨x, y, on⟩ := P
  dsimp only
  have hd : (Params.d : Fp) = dNat := rfl
  rw [hd] at on
  have hv := v_ne_zero y
  obtain ⟨v, hvd⟩ : ∃ v, v = (dNat : Fp) * y ^ 2 + 1 := ⟨_, rfl⟩
  obtain ⟨u, hud⟩ : ∃ u, u = y ^ 2 - 1 := ⟨_, rfl⟩
  rw [← hvd] at hv
  have hu : u = x ^ 2 * v := by rw [hud, hvd]; linear_combination on
  have key : ∀ r : Fp, r ^ 2 * v = u → r = x ∨ r = -x := by
    intro r hr
    rw [hu] at hr
    exact sq_eq_sq_iff_eq_or_eq_neg.mp (mul_right_cancel₀ hv hr)
  unfold rootOf
  dsimp only
  rw [← hud, ← hvd]
  generalize hc : u * v ^ 3 * (u * v ^ 7) ^ ((p25519 - 5) / 8) = c
  split
  · exact key c ‹_›
  · rename_i hne
    apply key
    have hcv : c ^ 2 * v = u * (x * v ^ 4) ^ ((p25519 - 1) / 2) := by
      have e1 : (p25519 - 1) / 2 = 2 * (2 * ((p25519 - 5) / 8) + 1) := by decide +kernel
      rw [← hc, e1, pow_mul, pow_add, pow_one, mul_comm 2]
      have e2 : (x * v ^ 4) ^ 2 = u * v ^ 7 := by rw [hu]; ring
      rw [e2, pow_mul]
      ring
    have hpm : u = 0 ∨ (x * v ^ 4) ^ ((p25519 - 1) / 2) = 1 ∨ (x * v ^ 4) ^ ((p25519 - 1) / 2) = -1 := by
      by_cases hx : x = 0
      · left; rw [hu, hx]; ring
      · right
        have h0 : x * v ^ 4 ≠ 0 := mul_ne_zero hx (pow_ne_zero _ hv)
        have := ZMod.pow_card_sub_one_eq_one h0
        have e : p25519 - 1 = (p25519 - 1) / 2 * 2 := by decide +kernel
        rw [e, pow_mul] at this
        exact sq_eq_sq_iff_eq_or_eq_neg.mp (by rw [this, one_pow])
    rcases hpm with h | h | h
    · exfalso; apply hne; rw [hcv, h, zero_mul]
    · exfalso; apply hne; rw [hcv, h, mul_one]
    · rw [mul_pow, iNat_sq]
      rw [h] at hcv
      linear_combination -hcv

/-- Opposite non-zero numbers have different parity. -/
theorem parity_neg (x : Fp) (hx : x ≠ 0) : (-x).val % 2 ≠ x.val % 2 := by
  have : NeZero x := ⟨hx⟩
  rw [ZMod.val_neg_of_ne_zero]
  have h1 := ZMod.val_lt x
  have h2 : p25519 % 2 = 1 := by decide +kernel
  omega

theorem xOf_spec (P : EdPt) : xOf P.y (P.x.val % 2) = P.x := by
  unfold xOf
  by_cases hx : P.x = 0
  · rcases rootOf_spec P with h | h <;> rw [h, hx] <;> simp
  · have hp := parity_neg P.x hx
    rcases rootOf_spec P with h | h
    · rw [h, if_pos rfl]
    · rw [h, if_neg hp, neg_neg]

theorem edDec_edEnc (P : EdPt) : edDec (edEnc P) = some P := by
  unfold edDec
  simp only [edEnc_y, edEnc_sign, ZMod.natCast_zmod_val, xOf_spec]
  rw [dif_pos ⟨le32_length _, P.on⟩]

/-! ### Small order -/

theorem one_add_d : (1 : Fp) + dNat ≠ 0 := by
  intro h
  apply dNat_nonsquare
  exact ⟨iNat, by linear_combination h - iNat_sq⟩

theorem dbl_x (P : EdPt) : (P + P).x * (1 + dNat * P.x * P.x * P.y * P.y) = P.x * P.y + P.y * P.x := add_x P P
theorem dbl_y (P : EdPt) : (P + P).y * (1 - dNat * P.x * P.x * P.y * P.y) = P.y * P.y + P.x * P.x := add_y P P

theorem on' (P : EdPt) : -P.x ^ 2 + P.y ^ 2 = 1 + (dNat : Fp) * P.x ^ 2 * P.y ^ 2 := P.on

theorem x_zero_of_y (P : EdPt) (h : P.y ^ 2 = 1) : P.x = 0 := by
  have := on' P
  rw [h] at this
  have : P.x ^ 2 * (1 + dNat) = 0 := by linear_combination -this
  exact pow_eq_zero_iff (two_ne_zero) |>.mp ((mul_eq_zero.mp this).resolve_right one_add_d)

theorem order1 (P : EdPt) (h : P.y = 1) : P = 0 := by
  apply Point.ext
  · rw [x_zero_of_y P (by rw [h, one_pow])]; rfl
  · rw [h]; rfl

theorem order2 (P : EdPt) (h : P.y = -1) : P + P = 0 := by
  have hx := x_zero_of_y P (by rw [h]; ring)
  apply order1
  have := dbl_y P
  rw [hx, h] at this
  linear_combination this

theorem order4 (P : EdPt) (h : P.y = 0) : (P + P) + (P + P) = 0 := by
  apply order2
  have h1 := dbl_y P
  have h2 := on' P
  rw [h] at h1 h2
  linear_combination h1 - h2

theorem order8 (P : EdPt) (h : (dNat : Fp) * P.y ^ 4 + 2 * P.y ^ 2 = 1) :
    ((P + P) + (P + P)) + ((P + P) + (P + P)) = 0 := by
  apply order4
  have hs : (P.x ^ 2 + P.y ^ 2) * (dNat * P.y ^ 2 + 1) = 0 := by linear_combination h - on' P
  have hs := (mul_eq_zero.mp hs).resolve_right (v_ne_zero P.y)
  have h1 := dbl_y P
  have hm := dm P P
  have : (P + P).y * (1 - dNat * P.x * P.x * P.y * P.y) = 0 := by rw [h1]; linear_combination hs
  exact (mul_eq_zero.mp this).resolve_right hm

theorem eight_nsmul (P : EdPt) : 8 • P = ((P + P) + (P + P)) + ((P + P) + (P + P)) := by
  rw [show 8 = 2 * 2 * 2 by rfl, mul_nsmul, mul_nsmul, two_nsmul, two_nsmul, two_nsmul]

theorem edSmallOrder_spec (P : EdPt) (h : edSmallOrder (edEnc P) = true) : 8 • P = 0 := by
  unfold edSmallOrder at h
  rw [decide_eq_true_iff, edEnc_y] at h
  have hy : ∀ n : Nat, P.y.val = n → P.y = (n : Fp) := by
    rintro n rfl; exact (ZMod.natCast_zmod_val _).symm
  rw [eight_nsmul]
  simp only [List.mem_cons, List.not_mem_nil, or_false] at h
  have z4 : P.y = 0 → ((P + P) + (P + P)) + ((P + P) + (P + P)) = 0 := fun h => by rw [order4 P h, add_zero]
  have z1 : P.y = 1 → ((P + P) + (P + P)) + ((P + P) + (P + P)) = 0 := fun h => by rw [order1 P h]; simp
  have e8 : (dNat * y8 ^ 4 + 2 * y8 ^ 2) % p25519 = 1 % p25519 := by decide +kernel
  have e8' := (ZMod.natCast_eq_natCast_iff' _ _ _).mpr e8
  push_cast at e8'
  rcases h with h | h | h | h | h | h | h
  · exact z4 (by rw [hy _ h, Nat.cast_zero])
  · exact z1 (by rw [hy _ h, Nat.cast_one])
  · apply order8; rw [hy _ h]; exact e8'
  · apply order8
    rw [hy _ h, Nat.cast_sub (by decide +kernel), ZMod.natCast_self]
    linear_combination e8'
  · have : P.y = -1 := by
      rw [hy _ h, Nat.cast_sub (by decide +kernel), ZMod.natCast_self]; simp
    rw [order2 P this]; simp
  · exact z4 (by rw [hy _ h, ZMod.natCast_self])
  · exact z1 (by rw [hy _ h, Nat.cast_add, ZMod.natCast_self]; simp)

/-- edwards25519. -/
noncomputable def edwards25519 : Curve where
  Pt := EdPt
  B := edB
  enc := edEnc
  dec := edDec
  canonical := edCanonical
  smallOrder := edSmallOrder
  order := order_edB
  enc_length _ := le32_length _
  dec_enc := edDec_edEnc
  canonical_enc P := by
    unfold edCanonical
    rw [edEnc_y, decide_eq_true_iff]
    exact ZMod.val_lt _
  smallOrder_enc := edSmallOrder_spec

/-- The base point has the encoding 0x58 0x66 … 0x66. -/
theorem edB_enc : edwards25519.enc edwards25519.B = 0x58 :: List.replicate 31 0x66 := by
  show le32 (((byNat : Nat) : Fp).val + 2 ^ 255 * (((bxNat : Nat) : Fp).val % 2)) = _
  rw [ZMod.val_natCast, ZMod.val_natCast]
  decide +kernel

end Cardano.Ed
