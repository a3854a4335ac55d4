import Mathlib.Algebra.Group.Basic
import Mathlib.Data.ZMod.Basic
import Verif.Model.Basic
import Verif.Spec.Util
import Verif.Lemmas.Util

/-! # Ed25519 as libsodium exposes it

The curve is a parameter: any commutative group with a base point of order exactly
`ellL`, a 32-byte encoding of its points and a decoder that inverts it.  The libsodium
functions used by the library are written on top of that from libsodium's documentation
and source (libsodium itself is not in /repo). -/

namespace Cardano.Ed

open Cardano

/-- Order of the Ed25519 base point. -/
def ellL : Nat := 2 ^ 252 + 27742317777372353535851937790883648493

/-- A group with an encoding, standing for edwards25519. -/
structure Curve where
  Pt : Type
  [grp : AddCommGroup Pt]
  /-- the base point -/
  B : Pt
  /-- point encoding -/
  enc : Pt → Bytes
  /-- `ge25519_frombytes` together with the on-curve test -/
  dec : Bytes → Option Pt
  /-- `ge25519_is_canonical` -/
  canonical : Bytes → Bool
  /-- `ge25519_has_small_order` -/
  smallOrder : Bytes → Bool
  order : ∀ n : Nat, n • B = 0 ↔ ellL ∣ n
  enc_length : ∀ p, (enc p).length = 32
  dec_enc : ∀ p, dec (enc p) = some p
  canonical_enc : ∀ p, canonical (enc p) = true
  smallOrder_enc : ∀ p, smallOrder (enc p) = true → 8 • p = 0

attribute [instance] Curve.grp

theorem Curve.enc_inj (C : Curve) {p q : C.Pt} (h : C.enc p = C.enc q) : p = q := by
  have := C.dec_enc p
  rw [h, C.dec_enc] at this
  exact (Option.some.inj this).symm

/-- 32-byte little-endian encoding of a number below 2^256. -/
def le32 (n : Nat) : Bytes := Util.packLE 32 n

/-- `crypto_core_ed25519_scalar_reduce`: a 64-byte number modulo `ellL`. -/
def scalarReduce (wide : Bytes) : Bytes := le32 (leNat wide % ellL)

/-- `crypto_core_ed25519_scalar_add`: libsodium adds the two 32-byte numbers (modulo
2^256) and reduces. -/
def scalarAdd (x y : Bytes) : Bytes := le32 ((leNat x + leNat y) % 2 ^ 256 % ellL)

/-- `crypto_core_ed25519_scalar_mul`. -/
def scalarMul (x y : Bytes) : Bytes := le32 (leNat x * leNat y % ellL)

/-- `crypto_core_ed25519_scalar_sub`: adds the negation (`-y` modulo `ellL`). -/
def scalarSub (x y : Bytes) : Bytes := scalarAdd x (le32 ((ellL - leNat y % ellL) % ellL))

/-- `crypto_core_ed25519_scalar_invert`: the power `ellL - 2`; the status is failure for
zero. -/
def scalarInvert (x : Bytes) : Bytes × Bool := (le32 (leNat x ^ (ellL - 2) % ellL), !x.all (· == 0))

/-- `crypto_scalarmult_ed25519_base_noclamp`: the top bit of the scalar is ignored; the
encoding of the product is always written; the status is failure for a zero scalar or a
product equal to the identity. -/
def baseMul (C : Curve) (n : Bytes) : Bytes × Bool :=
  let q : C.Pt := (leNat n % 2 ^ 255) • C.B
  (C.enc q, !(decide (C.enc q = C.enc 0) || decide (leNat n = 0)))

/-- `crypto_core_ed25519_add`: fails iff an operand does not decode to a curve point. -/
def pointAdd (C : Curve) (p q : Bytes) : Option Bytes :=
  match C.dec p, C.dec q with
  | some a, some b => some (C.enc (a + b))
  | _, _ => none

/-- `crypto_sign_verify_detached` (`sha` is SHA-512): canonical `S`, neither `R` nor the
key of small order, canonical key on the curve, and `[S]B - [h]A` encodes to `R`. -/
def verifyDetached (C : Curve) (sha : Bytes → Bytes) (sig msg pk : Bytes) : Bool :=
  let r := sig.take 32
  let s := leNat (sig.drop 32)
  if s ≥ ellL then false
  else if C.smallOrder r then false
  else if !C.canonical pk || C.smallOrder pk then false
  else match C.dec pk with
    | none => false
    | some a =>
      let h := leNat (sha (r ++ pk ++ msg)) % ellL
      decide (C.enc (s • C.B - h • a) = r)

/-! ### Consequences -/

theorem ellL_pos : 0 < ellL := by decide

theorem ellL_lt : ellL < 2 ^ 253 := by decide +kernel

instance : NeZero ellL := ⟨by decide⟩

theorem le32_length (n : Nat) : (le32 n).length = 32 := Util.packLE_length _ _

theorem leNat_le32 {n : Nat} (h : n < 2 ^ 256) : leNat (le32 n) = n := by
  rw [le32, Util.leNat_packLE, Nat.mod_eq_of_lt (by simpa using h)]

theorem mod_ell_lt (n : Nat) : n % ellL < 2 ^ 253 :=
  Nat.lt_trans (Nat.mod_lt _ ellL_pos) ellL_lt

theorem mod_ell_smul (C : Curve) (n : Nat) : (n % ellL) • C.B = n • C.B := by
  conv_rhs => rw [← Nat.mod_add_div n ellL]
  rw [add_nsmul, (C.order (ellL * _)).mpr (Nat.dvd_mul_right _ _), add_zero]

theorem smul_eq_iff (C : Curve) (m n : Nat) : m • C.B = n • C.B ↔ m % ellL = n % ellL := by
  constructor
  · intro h
    rcases Nat.le_total m n with hmn | hmn
    · obtain ⟨d, rfl⟩ := Nat.exists_eq_add_of_le hmn
      rw [add_nsmul] at h
      have : d • C.B = 0 := by
        have h2 := congrArg (fun x => -(m • C.B) + x) h
        simpa using h2.symm
      obtain ⟨k, rfl⟩ := (C.order d).mp this
      simp
    · obtain ⟨d, rfl⟩ := Nat.exists_eq_add_of_le hmn
      rw [add_nsmul] at h
      have : d • C.B = 0 := by
        have h2 := congrArg (fun x => -(n • C.B) + x) h
        simpa using h2
      obtain ⟨k, rfl⟩ := (C.order d).mp this
      simp
  · intro h
    rw [← mod_ell_smul C m, ← mod_ell_smul C n, h]

/-! ### A concrete instance -/

/-- Integers modulo `ellL` with base point 1 and the little-endian encoding satisfy the
interface (the discrete logarithm is trivial in it; only the laws matter here). -/
def toyCurve : Curve where
  Pt := ZMod ellL
  B := 1
  enc p := le32 p.val
  dec b := if b.length = 32 ∧ leNat b < ellL then some ((leNat b : ℕ) : ZMod ellL) else none
  canonical b := decide (leNat b < ellL)
  smallOrder b := decide (leNat b = 0)
  order n := by
    rw [nsmul_one]
    exact ZMod.natCast_eq_zero_iff n ellL
  enc_length p := le32_length _
  dec_enc p := by
    have h : leNat (le32 p.val) = p.val :=
      leNat_le32 (Nat.lt_trans (ZMod.val_lt p) (Nat.lt_trans ellL_lt (by decide)))
    rw [if_pos ⟨le32_length _, by rw [h]; exact ZMod.val_lt p⟩, h, ZMod.natCast_zmod_val]
  canonical_enc p := by
    have h : leNat (le32 p.val) = p.val :=
      leNat_le32 (Nat.lt_trans (ZMod.val_lt p) (Nat.lt_trans ellL_lt (by decide)))
    rw [decide_eq_true_iff, h]; exact ZMod.val_lt p
  smallOrder_enc p hp := by
    have h : leNat (le32 p.val) = p.val :=
      leNat_le32 (Nat.lt_trans (ZMod.val_lt p) (Nat.lt_trans ellL_lt (by decide)))
    rw [decide_eq_true_iff, h, ZMod.val_eq_zero] at hp
    rw [hp]; simp

end Cardano.Ed
