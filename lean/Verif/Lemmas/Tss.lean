import Verif.Model.Tss
import Verif.Lemmas.Bip32
import Verif.Lemmas.EllPrime
import Mathlib.FieldTheory.Finite.Basic
import Mathlib.LinearAlgebra.Lagrange

/-! # Scalars as elements of the prime field, points as multiples of the base point -/

namespace Cardano.Tss

open Cardano Cardano.Ed Cardano.Bip32

/-- The field of scalars. -/
abbrev F := ZMod ellL

/-- Value of a little-endian byte string in the field. -/
def sv (b : Bytes) : F := (leNat b : F)

/-- 32 bytes with a value below the group order. -/
def Canon (b : Bytes) : Prop := b.length = 32 ∧ leNat b < ellL

theorem ell_lt256 : ellL < 2 ^ 256 := Nat.lt_trans ellL_lt (by decide +kernel)

theorem leNat_le32mod (n : Nat) : leNat (le32 (n % ellL)) = n % ellL :=
  leNat_le32 (Nat.lt_trans (Nat.mod_lt _ ellL_pos) ell_lt256)

theorem canon_le32mod (n : Nat) : Canon (le32 (n % ellL)) :=
  ⟨le32_length _, by rw [leNat_le32mod]; exact Nat.mod_lt _ ellL_pos⟩

theorem sv_le32mod (n : Nat) : sv (le32 (n % ellL)) = (n : F) := by
  rw [sv, leNat_le32mod, ZMod.natCast_mod]

theorem canon_inj {a b : Bytes} (ha : Canon a) (hb : Canon b) (h : sv a = sv b) : a = b := by
  apply leNat_inj (by rw [ha.1, hb.1])
  have := (ZMod.natCast_eq_natCast_iff' _ _ _).mp h
  rwa [Nat.mod_eq_of_lt ha.2, Nat.mod_eq_of_lt hb.2] at this

theorem sv_val {a : Bytes} (ha : Canon a) : (sv a).val = leNat a := by
  rw [sv, ZMod.val_natCast, Nat.mod_eq_of_lt ha.2]

theorem canon_add (x y : Bytes) : Canon (scalarAdd x y) := canon_le32mod _

theorem sv_add {x y : Bytes} (hx : Canon x) (hy : Canon y) : sv (scalarAdd x y) = sv x + sv y := by
  unfold scalarAdd
  have : leNat x + leNat y < 2 ^ 256 := by
    have h1 := hx.2; have h2 := hy.2
    have h3 := ellL_lt
    have h4 : (2 : Nat) ^ 253 + 2 ^ 253 < 2 ^ 256 := by decide +kernel
    omega
  rw [Nat.mod_eq_of_lt this, sv_le32mod]; push_cast; rfl

theorem canon_mul (x y : Bytes) : Canon (scalarMul x y) := canon_le32mod _

theorem sv_mul (x y : Bytes) : sv (scalarMul x y) = sv x * sv y := by
  unfold scalarMul; rw [sv_le32mod]; push_cast; rfl

theorem canon_sub (x y : Bytes) : Canon (scalarSub x y) := canon_add _ _

theorem sv_sub {x : Bytes} (hx : Canon x) (y : Bytes) : sv (scalarSub x y) = sv x - sv y := by
  unfold scalarSub
  rw [sv_add hx (canon_le32mod _), sv_le32mod, Nat.cast_sub (Nat.le_of_lt (Nat.mod_lt _ ellL_pos)), ZMod.natCast_mod,
    ZMod.natCast_self]
  unfold sv; ring

theorem canon_reduce32 (b : Bytes) : Canon (reduce32 b) := canon_le32mod _
theorem canon_reduce64 (b : Bytes) : Canon (reduce64 b) := canon_le32mod _

theorem sv_reduce32 (b : Bytes) : sv (reduce32 b) = (leNat b : F) := by
  unfold reduce32 scalarReduce; rw [leNat_append_zeros, sv_le32mod]

theorem sv_reduce64 (b : Bytes) : sv (reduce64 b) = (leNat b : F) := by
  unfold reduce64 scalarReduce; rw [sv_le32mod]

theorem reduce32_canon {b : Bytes} (hb : Canon b) : reduce32 b = b :=
  canon_inj (canon_reduce32 b) hb (by rw [sv_reduce32]; rfl)

theorem canon_keyScalar (k : Prv) : Canon (keyScalar k) := canon_reduce32 _

theorem fromUint_leNat {v : Nat} (h : v < 2 ^ 64) : leNat (fromUint v) = v := by
  unfold fromUint
  rw [leNat_append_zeros]
  have : (List.range 8).map (fun i => UInt8.ofNat (v >>> (8 * i))) = Util.packLE 8 v := by
    simp [Util.packLE, List.range, List.range.loop, Nat.shiftRight_eq_div_pow]
    refine ⟨?_, ?_, ?_, ?_, ?_, ?_, ?_, ?_⟩ <;> (apply UInt8.toNat_inj.mp; simp [UInt8.toNat_ofNat', Nat.and_two_pow_sub_one_eq_mod (n := 8)] ; try exact (Nat.and_two_pow_sub_one_of_lt_two_pow (n := 8) (Nat.mod_lt _ (by decide))).symm)
  rw [this, Util.leNat_packLE, Nat.mod_eq_of_lt (by simpa using h)]

theorem canon_fromUint {v : Nat} (h : v < 2 ^ 64) : Canon (fromUint v) :=
  ⟨by simp [fromUint], by rw [fromUint_leNat h]; exact Nat.lt_trans h (by decide +kernel)⟩

theorem sv_fromUint {v : Nat} (h : v < 2 ^ 64) : sv (fromUint v) = (v : F) := by
  rw [sv, fromUint_leNat h]

theorem powLoop_sv (value : Bytes) : ∀ k r, sv (powLoop value k r) = sv r * sv value ^ k := by
  intro k
  induction k with
  | zero => intro r; simp [powLoop]
  | succ k ih => intro r; rw [powLoop, ih, sv_mul, pow_succ]; ring

theorem powLoop_canon (value : Bytes) : ∀ k r, Canon r → Canon (powLoop value k r) := by
  intro k
  induction k with
  | zero => intro r h; exact h
  | succ k ih => intro r _; exact ih _ (canon_mul _ _)

theorem sv_fromUintPow {v : Nat} (h : v < 2 ^ 64) (p : Nat) : sv (fromUintPow v p) = (v : F) ^ p := by
  unfold fromUintPow
  by_cases hp : p = 0
  · rw [if_pos hp, hp, sv_fromUint (by decide)]; simp
  · rw [if_neg hp, powLoop_sv, sv_fromUint h, ← pow_succ']
    congr 1; omega

theorem isZero_iff {s : Bytes} (hs : Canon s) : isZero s = true ↔ sv s = 0 := by
  constructor
  · intro h
    have : s = List.replicate 32 0 := by
      rw [List.eq_replicate_iff]
      refine ⟨hs.1, fun b hb => ?_⟩
      have := List.all_eq_true.mp h b hb
      simpa using this
    rw [this, sv, leNat_zeros]; simp
  · intro h
    have h0 : sv s = sv (List.replicate 32 0) := by rw [h, sv, leNat_zeros]; simp
    have : s = List.replicate 32 0 := canon_inj hs ⟨by simp, by rw [leNat_zeros]; exact ellL_pos⟩ h0
    rw [this]; decide

theorem canon_zero : Canon zero := ⟨by decide, by rw [zero, leNat_zeros]; exact ellL_pos⟩
theorem sv_zero : sv zero = 0 := by rw [zero, sv, leNat_zeros]; simp

theorem sv_invert (x : Bytes) (h : sv x ≠ 0) : sv (scalarInvert x).1 = (sv x)⁻¹ := by
  unfold scalarInvert
  rw [sv_le32mod]
  push_cast
  have h1 : sv x ^ (ellL - 1) = 1 := ZMod.pow_card_sub_one_eq_one h
  have h2 : ellL - 1 = (ellL - 2) + 1 := by have : 2 < ellL := by decide +kernel
                                            omega
  rw [h2, pow_succ] at h1
  exact eq_inv_of_mul_eq_one_left h1

theorem scalarDiv_eq (a : Bytes) {b : Bytes} (hb : Canon b) :
    (sv b = 0 ∧ scalarDiv a b = .throw .invalidArgument) ∨
    (sv b ≠ 0 ∧ ∃ c, scalarDiv a b = .ok c ∧ Canon c ∧ sv c = sv a / sv b) := by
  by_cases h : sv b = 0
  · left
    refine ⟨h, ?_⟩
    unfold scalarDiv; rw [(isZero_iff hb).mpr h]; rfl
  · right
    refine ⟨h, scalarMul a (scalarInvert b).1, ?_, canon_mul _ _, ?_⟩
    · have hz : isZero b = false := by
        cases hz : isZero b with
        | false => rfl
        | true => exact absurd ((isZero_iff hb).mp hz) h
      unfold scalarDiv
      have hst : (scalarInvert b).2 = true := by
        show (!b.all (· == 0)) = true
        have : b.all (· == 0) = false := hz
        rw [this]; rfl
      simp only [hz, Bool.false_eq_true, if_false]
      generalize hi : scalarInvert b = i at *
      obtain ⟨i1, i2⟩ := i
      simp only at hst
      subst hst
      rfl
    · rw [sv_mul, sv_invert b h, div_eq_mul_inv]

/-! ### points -/

/-- `[x]B`. -/
def bp (C : Curve) (x : F) : C.Pt := x.val • C.B

theorem bp_natCast (C : Curve) (n : Nat) : bp C (n : F) = n • C.B := by
  rw [bp, ZMod.val_natCast, mod_ell_smul]

theorem bp_add (C : Curve) (x y : F) : bp C (x + y) = bp C x + bp C y := by
  rw [bp, bp, bp, ZMod.val_add, mod_ell_smul, add_nsmul]

theorem bp_zero (C : Curve) : bp C 0 = 0 := by rw [bp, ZMod.val_zero, zero_nsmul]

theorem bp_inj (C : Curve) {x y : F} : bp C x = bp C y ↔ x = y := by
  constructor
  · intro h
    have := (smul_eq_iff C _ _).mp h
    rw [Nat.mod_eq_of_lt (ZMod.val_lt x), Nat.mod_eq_of_lt (ZMod.val_lt y)] at this
    exact ZMod.val_injective _ this
  · rintro rfl; rfl

theorem bp_eq_zero (C : Curve) {x : F} : bp C x = 0 ↔ x = 0 := by
  rw [← bp_zero C, bp_inj]

theorem bp_mul (C : Curve) (n : Nat) (x : F) : n • bp C x = bp C (n * x) := by
  rw [bp, bp, ZMod.val_mul, ZMod.val_natCast, mod_ell_smul, ← mul_nsmul']
  rw [smul_eq_iff, Nat.mod_mul_mod]

theorem dvd_iff (n : Nat) : ellL ∣ n ↔ (n : F) = 0 := (ZMod.natCast_eq_zero_iff n ellL).symm

theorem mulBase_eq (C : Curve) {s : Bytes} (hs : Canon s) : mulBase C s = C.enc (bp C (sv s)) := by
  unfold mulBase
  rw [baseMul_reduced C s (leNat s) (Nat.mod_eq_of_lt hs.2).symm]
  rw [sv, bp_natCast]

theorem pointPlus_enc (C : Curve) (p q : C.Pt) : pointPlus C (C.enc p) (C.enc q) = .ok (C.enc (p + q)) := by
  unfold pointPlus pointAdd
  simp only [C.dec_enc]

theorem publicKey_bp {C : Curve} {k : Prv} : k.publicKey C =
    if sv (keyScalar k) = 0 then .throw .runtimeError else .ok ⟨C.enc (bp C (sv (keyScalar k))), k.cc⟩ := by
  have h : sv (keyScalar k) = ((Spec.Bip32.kL k.key : Nat) : F) := sv_reduce32 _
  by_cases hd : ellL ∣ Spec.Bip32.kL k.key
  · rw [if_pos (by rw [h]; exact (dvd_iff _).mp hd)]
    unfold Prv.publicKey; rw [publickey_eq]; simp [hd]
  · rw [if_neg (by rw [h]; exact fun e => hd ((dvd_iff _).mpr e)), publicKey_of hd, h, bp_natCast]

theorem extKey_scalar (P : Prims) {s : Bytes} (hs : Canon s) : keyScalar (extKey P s) = s ∧ (extKey P s).key.take 32 = s ∧ (extKey P s).WF := by
  have : (extKey P s).key.take 32 = s := by
    unfold extKey prvOfX
    simp only [List.take_take]
    exact List.take_left' hs.1
  refine ⟨?_, this, ?_⟩
  · unfold keyScalar; rw [this]; exact reduce32_canon hs
  · unfold extKey prvOfX
    constructor <;> simp [hs.1, P.sha512_length]

end Cardano.Tss
