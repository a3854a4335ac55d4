import Verif.Spec.Edwards25519
import Verif.Spec.Sha2
import Mathlib.Algebra.Group.Ext

/-! # edwards25519 in a form Lean's kernel can run

`edwards25519` is defined with the field `ZMod p` and the textbook group law; multiples of a
point are repeated additions.  `edFast` is the same curve with double-and-add in projective coordinates and modular
exponentiation on natural numbers.  `edFast_eq : edFast = edwards25519`, so that any function of the model, which all take the curve as a
parameter, can be evaluated on real keys (`Verif.Vectors.*`). -/

namespace Cardano.Ed

open Edwards Cardano.Spec

/-- A number as a field element. -/
def mkFp (n : Nat) : Fp := (⟨n % p25519, Nat.mod_lt _ (by decide +kernel)⟩ : Fin p25519)

/-- The number of a field element. -/
def valFp (a : Fp) : Nat := Fin.val (n := p25519) a

theorem valFp_eq (a : Fp) : valFp a = a.val := rfl

theorem mkFp_eq (n : Nat) : mkFp n = (n : Fp) := by
  apply ZMod.val_injective
  rw [ZMod.val_natCast]
  rfl

/-- `b ^ e % p` by square and multiply: `acc * b ^ e` with `f` bits to go. -/
def powP : (f e b acc : Nat) → Nat
  | 0, _, _, acc => acc
  | f + 1, e, b, acc =>
    force (b * b % p25519) fun b2 =>
      bif Nat.beq (e % 2) 1 then force (acc * b % p25519) fun a => powP f (e / 2) b2 a
      else powP f (e / 2) b2 acc

theorem powP_spec : ∀ (f e b acc : Nat), e < 2 ^ f → ((powP f e b acc : Nat) : Fp) = (acc : Fp) * (b : Fp) ^ e := by
  intro f
  induction f with
  | zero =>
    intro e b acc h
    obtain rfl : e = 0 := by simpa using h
    simp [powP]
  | succ f ih =>
    intro e b acc h
    have h2 : e / 2 < 2 ^ f := by rw [pow_succ] at h; omega
    rw [powP]
    simp only [force_eq]
    have e2 : (b : Fp) ^ e = (b : Fp) ^ (e % 2) * ((b : Fp) * b) ^ (e / 2) := by
      rw [← pow_two, ← pow_mul, ← pow_add]
      congr 1; omega
    cases hb : Nat.beq (e % 2) 1 with
    | true =>
      have h1 := Nat.eq_of_beq_eq_true hb
      rw [cond_true, ih _ _ _ h2, cast_mod, cast_mod, e2, h1]
      push_cast
      ring
    | false =>
      have h1 : e % 2 = 0 := by
        have := Nat.ne_of_beq_eq_false hb
        omega
      rw [cond_false, ih _ _ _ h2, cast_mod, e2, h1]
      push_cast
      ring

/-- `b ^ e % p`. -/
def powFp (b e : Nat) : Nat := powP (Nat.log2 e + 1) e b 1

theorem powFp_spec (b e : Nat) : ((powFp b e : Nat) : Fp) = (b : Fp) ^ e := by
  rw [powFp, powP_spec _ _ _ _ Nat.lt_log2_self, Nat.cast_one, one_mul]

/-- Are these the coordinates of a point? -/
def onCurve (x y : Nat) : Bool :=
  Nat.beq (y * y % p25519) ((x * x + 1 + dNat * (x * x % p25519) * (y * y % p25519)) % p25519)

theorem onCurve_iff (x y : Nat) : onCurve x y = true ↔ -(mkFp x) ^ 2 + (mkFp y) ^ 2 = 1 + (Params.d : Fp) * (mkFp x) ^ 2 * (mkFp y) ^ 2 := by
  have hd : (Params.d : Fp) = dNat := rfl
  rw [hd, mkFp_eq, mkFp_eq, onCurve, Nat.beq_eq, ← ZMod.natCast_eq_natCast_iff']
  simp only [Nat.cast_mul, Nat.cast_add, cast_mod, Nat.cast_one]
  constructor <;> intro h <;> linear_combination h

/-- The point with these coordinates (the neutral element if there is none). -/
def mkPt (x y : Nat) : EdPt := if h : onCurve x y = true then ⟨mkFp x, mkFp y, (onCurve_iff x y).mp h⟩ else Edwards.zero

theorem mkPt_eq (P : EdPt) (x y : Nat) (hx : P.x = x) (hy : P.y = y) : mkPt x y = P := by
  rw [← mkFp_eq] at hx hy
  have h : onCurve x y = true := by
    rw [onCurve_iff, ← hx, ← hy]; exact P.on
  rw [mkPt, dif_pos h]
  exact Point.ext hx.symm hy.symm

/-- Back from projective coordinates. -/
def affine (X Y Z : Nat) : EdPt :=
  force (powFp Z (p25519 - 2)) fun i => force (X * i % p25519) fun x => force (Y * i % p25519) fun y => mkPt x y

theorem affine_eq {P : EdPt} {X Y Z : Nat} (h : Rep P X Y Z) : affine X Y Z = P := by
  obtain ⟨z0, hx, hy⟩ := h
  have hi : (Z : Fp) * (Z : Fp) ^ (p25519 - 2) = 1 := by
    rw [← pow_succ', show p25519 - 2 + 1 = p25519 - 1 by decide +kernel]
    exact ZMod.pow_card_sub_one_eq_one z0
  unfold affine
  simp only [force_eq]
  apply mkPt_eq
  · rw [cast_mod, Nat.cast_mul, powFp_spec, ← hx]; linear_combination -P.x * hi
  · rw [cast_mod, Nat.cast_mul, powFp_spec, ← hy]; linear_combination -P.y * hi

theorem rep_self (P : EdPt) : Rep P (valFp P.x) (valFp P.y) 1 := by
  refine ⟨by rw [Nat.cast_one]; exact one_ne_zero, ?_, ?_⟩ <;>
    rw [Nat.cast_one, mul_one, valFp_eq, ZMod.natCast_zmod_val]

/-- Projective addition with its common parts evaluated once. -/
def addK {α : Type} (X Y Z X' Y' Z' : Nat) (k : Nat → Nat → Nat → α) : α :=
  force (Z * Z' % p25519) fun a => force (a ^ 2) fun b => force (X * X' % p25519) fun c => force (Y * Y' % p25519) fun d =>
    force (dNat * c % p25519 * d % p25519) fun e => force ((b + (p25519 - e)) % p25519) fun f =>
      force ((b + e) % p25519) fun g => force (a * f % p25519 * (X * Y' + Y * X') % p25519) fun x =>
        force (a * g % p25519 * (Y * Y' + X * X') % p25519) fun y => force (f * g % p25519) fun z => k x y z

theorem addK_eq {α : Type} (X Y Z X' Y' Z' : Nat) (k : Nat → Nat → Nat → α) :
    addK X Y Z X' Y' Z' k = k (pX X Y Z X' Y' Z') (pY X Y Z X' Y' Z') (pZ X Y Z X' Y' Z') := by
  unfold addK
  simp only [force_eq]
  rfl

/-- `acc + n • base`. -/
def mulK : (fuel n X Y Z X' Y' Z' : Nat) → EdPt
  | 0, _, _, _, _, X', Y', Z' => affine X' Y' Z'
  | f + 1, n, X, Y, Z, X', Y', Z' =>
    addK X Y Z X Y Z fun X2 Y2 Z2 =>
      bif Nat.beq (n % 2) 1 then addK X' Y' Z' X Y Z fun X'' Y'' Z'' => mulK f (n / 2) X2 Y2 Z2 X'' Y'' Z''
      else mulK f (n / 2) X2 Y2 Z2 X' Y' Z'

theorem mulK_spec : ∀ (f n : Nat) (P Q : EdPt) (X Y Z X' Y' Z' : Nat), n < 2 ^ f → Rep P X Y Z → Rep Q X' Y' Z' →
    mulK f n X Y Z X' Y' Z' = Q + n • P := by
  intro f
  induction f with
  | zero =>
    intro n P Q X Y Z X' Y' Z' hn hP hQ
    obtain rfl : n = 0 := by simpa using hn
    rw [zero_nsmul, add_zero]
    exact affine_eq hQ
  | succ f ih =>
    intro n P Q X Y Z X' Y' Z' hn hP hQ
    have h2 := rep_add hP hP
    have hn2 : n / 2 < 2 ^ f := by rw [pow_succ] at hn; omega
    have e : n • P = (n % 2) • P + (n / 2) • (P + P) := by
      rw [← two_nsmul, ← mul_nsmul', ← add_nsmul]
      congr 1; omega
    rw [mulK, addK_eq, addK_eq]
    cases hb : Nat.beq (n % 2) 1 with
    | true =>
      have h1 := Nat.eq_of_beq_eq_true hb
      rw [cond_true, ih _ _ _ _ _ _ _ _ _ hn2 h2 (rep_add hQ hP), e, h1, one_nsmul, add_assoc]
    | false =>
      have h1 : n % 2 = 0 := by
        have := Nat.ne_of_beq_eq_false hb
        omega
      rw [cond_false, ih _ _ _ _ _ _ _ _ _ hn2 h2 hQ, e, h1, zero_nsmul, zero_add]

theorem rep_zero : Rep 0 0 1 1 :=
  ⟨by rw [Nat.cast_one]; exact one_ne_zero, by rw [Edwards.zero_x, zero_mul, Nat.cast_zero], by rw [Edwards.zero_y, one_mul]⟩

/-- Multiples of a point. -/
def fastMul (n : Nat) (P : EdPt) : EdPt := mulK (Nat.log2 n + 1) n (valFp P.x) (valFp P.y) 1 0 1 1

theorem fastMul_eq (n : Nat) (P : EdPt) : fastMul n P = n • P := by
  rw [fastMul, mulK_spec _ _ _ _ _ _ _ _ _ _ Nat.lt_log2_self (rep_self P) rep_zero, zero_add]

/-- Sum of two points. -/
def fastAdd (P Q : EdPt) : EdPt := addK (valFp P.x) (valFp P.y) 1 (valFp Q.x) (valFp Q.y) 1 affine

theorem fastAdd_eq (P Q : EdPt) : fastAdd P Q = P + Q := by
  rw [fastAdd, addK_eq]
  exact affine_eq (rep_add (rep_self P) (rep_self Q))

/-- The opposite of a point. -/
def fastNeg (P : EdPt) : EdPt := mkPt (p25519 - valFp P.x) (valFp P.y)

theorem fastNeg_eq (P : EdPt) : fastNeg P = -P := by
  apply mkPt_eq
  · rw [valFp_eq, Nat.cast_sub (Nat.le_of_lt (ZMod.val_lt _)), ZMod.natCast_self, ZMod.natCast_zmod_val, zero_sub]
    rfl
  · rw [valFp_eq, ZMod.natCast_zmod_val]
    rfl

/-- The group of edwards25519 with these operations. -/
@[instance_reducible] def fastGroup : AddCommGroup EdPt where
  add := fastAdd
  zero := Edwards.zero
  neg := fastNeg
  sub P Q := fastAdd P (fastNeg Q)
  nsmul := fastMul
  zsmul n P := match n with
    | .ofNat n => fastMul n P
    | .negSucc n => fastNeg (fastMul (n + 1) P)
  add_assoc a b c := by
    show fastAdd (fastAdd a b) c = fastAdd a (fastAdd b c)
    simp only [fastAdd_eq]; exact add_assoc a b c
  zero_add a := by show fastAdd _ _ = _; rw [fastAdd_eq]; exact zero_add a
  add_zero a := by show fastAdd _ _ = _; rw [fastAdd_eq]; exact add_zero a
  neg_add_cancel a := by
    show fastAdd (fastNeg a) a = _
    rw [fastAdd_eq, fastNeg_eq]; exact neg_add_cancel a
  add_comm a b := by show fastAdd a b = fastAdd b a; rw [fastAdd_eq, fastAdd_eq]; exact add_comm a b
  sub_eq_add_neg a b := rfl
  nsmul_zero a := by
    show fastMul 0 a = _
    rw [fastMul_eq]; exact zero_nsmul a
  nsmul_succ n a := by
    show fastMul (n + 1) a = fastAdd (fastMul n a) a
    rw [fastMul_eq, fastMul_eq, fastAdd_eq]; exact succ_nsmul a n
  zsmul_zero' a := by
    show fastMul 0 a = _
    rw [fastMul_eq]; exact zero_nsmul a
  zsmul_succ' n a := by
    show fastMul (n + 1) a = fastAdd (fastMul n a) a
    rw [fastMul_eq, fastMul_eq, fastAdd_eq]; exact succ_nsmul a n
  zsmul_neg' n a := rfl

theorem fastGroup_eq : fastGroup = (inferInstance : AddCommGroup EdPt) := by
  apply AddCommGroup.ext
  funext a b
  exact fastAdd_eq a b

/-- Encoding. -/
def fastEnc (P : EdPt) : Bytes := le32 (valFp P.y + 2 ^ 255 * (valFp P.x % 2))

/-- `rootOf` on numbers. -/
def rootK {α : Type} (y : Nat) (k : Nat → α) : α :=
  force (y * y % p25519) fun y2 => force ((y2 + (p25519 - 1)) % p25519) fun u => force ((dNat * y2 + 1) % p25519) fun v =>
    force (v * v % p25519 * v % p25519) fun v3 => force (u * (v3 * v3 % p25519 * v % p25519) % p25519) fun w =>
      force (u * v3 % p25519 * powFp w ((p25519 - 5) / 8) % p25519) fun c =>
        bif Nat.beq (c * c % p25519 * v % p25519) u then k c else k (c * iNat % p25519)

theorem cast_inj_of_lt {a b : Nat} (ha : a < p25519) (hb : b < p25519) : ((a : Fp) = b) ↔ a = b := by
  rw [ZMod.natCast_eq_natCast_iff', Nat.mod_eq_of_lt ha, Nat.mod_eq_of_lt hb]

theorem rootK_eq {α : Type} (y : Nat) (k : Nat → α) : rootK y k = k (rootOf (y : Fp)).val := by
  have hpos : 0 < p25519 := by decide +kernel
  unfold rootK
  simp only [force_eq]
  generalize hy2 : y * y % p25519 = y2
  generalize hu : (y2 + (p25519 - 1)) % p25519 = u
  generalize hv : (dNat * y2 + 1) % p25519 = v
  generalize hv3 : v * v % p25519 * v % p25519 = v3
  generalize hw : u * (v3 * v3 % p25519 * v % p25519) % p25519 = w
  generalize hc : u * v3 % p25519 * powFp w ((p25519 - 5) / 8) % p25519 = c
  have ey2 : (y2 : Fp) = (y : Fp) ^ 2 := by rw [← hy2, cast_mod, Nat.cast_mul, pow_two]
  have eu : (u : Fp) = (y : Fp) ^ 2 - 1 := by
    rw [← hu, cast_mod, Nat.cast_add, Nat.cast_sub (by decide +kernel), ZMod.natCast_self, ey2]; push_cast; ring
  have ev : (v : Fp) = dNat * (y : Fp) ^ 2 + 1 := by
    rw [← hv, cast_mod, Nat.cast_add, Nat.cast_mul, ey2]; push_cast; ring
  have ev3 : (v3 : Fp) = (v : Fp) ^ 3 := by rw [← hv3]; simp only [cast_mod, Nat.cast_mul]; ring
  have ew : (w : Fp) = u * (v : Fp) ^ 7 := by rw [← hw]; simp only [cast_mod, Nat.cast_mul, ev3]; ring
  have ec : (c : Fp) = u * (v : Fp) ^ 3 * (u * (v : Fp) ^ 7) ^ ((p25519 - 5) / 8) := by
    rw [← hc]; simp only [cast_mod, Nat.cast_mul, powFp_spec, ev3, ew]
  have ul : u < p25519 := by rw [← hu]; exact Nat.mod_lt _ hpos
  have cl : c < p25519 := by rw [← hc]; exact Nat.mod_lt _ hpos
  have ht : Nat.beq (c * c % p25519 * v % p25519) u = true ↔ (c : Fp) ^ 2 * v = u := by
    rw [Nat.beq_eq, ← cast_inj_of_lt (Nat.mod_lt _ hpos) ul]
    simp only [cast_mod, Nat.cast_mul]
    rw [pow_two]
  have hr : rootOf (y : Fp) = if (c : Fp) ^ 2 * v = u then (c : Fp) else c * iNat := by
    unfold rootOf
    dsimp only
    rw [← eu, ← ev, ← ec]
  rw [hr]
  cases hb : Nat.beq (c * c % p25519 * v % p25519) u with
  | true => rw [cond_true, if_pos (ht.mp hb), ZMod.val_natCast, Nat.mod_eq_of_lt cl]
  | false =>
    rw [cond_false, if_neg (fun h => by rw [ht.mpr h] at hb; exact absurd hb (by decide)), ← Nat.cast_mul, ZMod.val_natCast]

/-- Decoding: the point with this `y` and sign. -/
def decAt (y s : Nat) : Option EdPt :=
  rootK y fun r =>
    force (bif Nat.beq (r % 2) s then r else (p25519 - r) % p25519) fun x =>
      if h : onCurve x y = true then some ⟨mkFp x, mkFp y, (onCurve_iff x y).mp h⟩ else none

/-- Decoding. -/
def fastDec (b : Bytes) : Option EdPt :=
  bif Nat.beq b.length 32 then
    force (leNat b) fun n => force (n % 2 ^ 255 % p25519) fun y => decAt y (n / 2 ^ 255 % 2)
  else none

theorem some_pt {x x' y y' : Fp} (hx : x = x') (hy : y = y') {h h'} : some (Point.mk x y h) = some (Point.mk x' y' h') := by
  subst hx hy
  rfl

theorem decAt_eq (y s l : Nat) (Y : Fp) (hY : (y : Fp) = Y) :
    (bif Nat.beq l 32 then decAt y s else none) =
      if h : l = 32 ∧ -(xOf Y s) ^ 2 + Y ^ 2 = 1 + Params.d * (xOf Y s) ^ 2 * Y ^ 2 then some ⟨xOf Y s, Y, h.2⟩ else none := by
  unfold decAt
  simp only [force_eq, rootK_eq]
  have hy : mkFp y = Y := by rw [mkFp_eq, hY]
  rw [hY]
  have hx : mkFp (bif Nat.beq ((rootOf Y).val % 2) s then (rootOf Y).val else (p25519 - (rootOf Y).val) % p25519) = xOf Y s := by
    rw [mkFp_eq]
    unfold xOf
    cases hb : Nat.beq ((rootOf Y).val % 2) s with
    | true => rw [cond_true, if_pos (Nat.eq_of_beq_eq_true hb), ZMod.natCast_zmod_val]
    | false =>
      rw [cond_false, if_neg (Nat.ne_of_beq_eq_false hb), cast_mod, Nat.cast_sub (Nat.le_of_lt (ZMod.val_lt _)),
        ZMod.natCast_self, ZMod.natCast_zmod_val, zero_sub]
  revert hx
  generalize (bif Nat.beq ((rootOf Y).val % 2) s then (rootOf Y).val else (p25519 - (rootOf Y).val) % p25519) = x
  intro hx
  have hc := onCurve_iff x y
  cases hl : Nat.beq l 32 with
  | false =>
    rw [cond_false, dif_neg]
    exact fun h => Nat.ne_of_beq_eq_false hl h.1
  | true =>
    rw [cond_true]
    have h32 : l = 32 := Nat.eq_of_beq_eq_true hl
    by_cases h : onCurve x y = true
    · have h' := hc.mp h
      rw [hx, hy] at h'
      rw [dif_pos h, dif_pos ⟨h32, h'⟩]
      exact some_pt hx hy
    · have h' : ¬ _ := fun g => h (hc.mpr g)
      rw [hx, hy] at h'
      rw [dif_neg h, dif_neg (fun g => h' g.2)]

theorem fastDec_eq (b : Bytes) : fastDec b = edDec b := by
  have h : (force (leNat b) fun n => force (n % 2 ^ 255 % p25519) fun y => decAt y (n / 2 ^ 255 % 2)) =
      decAt (leNat b % 2 ^ 255 % p25519) (leNat b / 2 ^ 255 % 2) := (force_eq _ _).trans (force_eq _ _)
  exact (congrArg (fun t => bif Nat.beq b.length 32 then t else none) h).trans
    (decAt_eq (leNat b % 2 ^ 255 % p25519) (leNat b / 2 ^ 255 % 2) b.length _ (cast_mod _))

/-- The group laws of `edwards25519`, about any group equal to it. -/
theorem order_fast (n : Nat) : fastMul n (mkPt bxNat byNat) = Edwards.zero ↔ ellL ∣ n := by
  rw [fastMul_eq, mkPt_eq edB bxNat byNat rfl rfl]
  exact order_edB n

/-- edwards25519 with fast operations. -/
def edFast : Curve where
  Pt := EdPt
  grp := fastGroup
  B := mkPt bxNat byNat
  enc := fastEnc
  dec := fastDec
  canonical := edCanonical
  smallOrder := edSmallOrder
  order := order_fast
  enc_length _ := le32_length _
  dec_enc P := by rw [fastDec_eq]; exact edDec_edEnc P
  canonical_enc P := by
    show edCanonical (edEnc P) = true
    unfold edCanonical
    rw [edEnc_y, decide_eq_true_iff]
    exact ZMod.val_lt _
  smallOrder_enc P h := by
    show fastMul 8 P = _
    rw [fastMul_eq]; exact edSmallOrder_spec P h

theorem curve_eq {Pt : Type} {g g' : AddCommGroup Pt} {B B' : Pt} {enc enc' : Pt → Bytes} {dec dec' : Bytes → Option Pt}
    {can small : Bytes → Bool} (hg : g = g') (hB : B = B') (he : enc = enc') (hd : dec = dec') {o o' l l' d d' c c' s s'} :
    @Curve.mk Pt g B enc dec can small o l d c s = @Curve.mk Pt g' B' enc' dec' can small o' l' d' c' s' := by
  subst hg hB he hd
  rfl

/-- It is edwards25519. -/
theorem edFast_eq : edFast = edwards25519 :=
  curve_eq fastGroup_eq (mkPt_eq edB bxNat byNat rfl rfl) rfl (funext fastDec_eq)

end Cardano.Ed
