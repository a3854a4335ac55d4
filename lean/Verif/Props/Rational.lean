import Verif.Lemmas.RationalFull
import Verif.Props.Util
import Mathlib.Tactic.FieldSimp
import Mathlib.RingTheory.Coprime.Lemmas
import Mathlib.Algebra.Order.Field.Rat

/-! # `rationalApprox` on all doubles (C17) -/

namespace Cardano.Util

theorem shl1_shl64 (e : Nat) : shl1 (shl64 e) = shl64 (e + 1) := by
  unfold shl1 shl64
  rcases Nat.lt_trichotomy e 62 with h | rfl | h
  · rw [if_pos (by omega), if_pos (by omega)]
    have h1 : (2 : Int) * 2 ^ e = 2 ^ (e + 1) := by rw [pow_succ]; ring
    have h2 : (2 : Int) ^ (e + 1) ≤ 2 ^ 62 := by
      have : (2 : Nat) ^ (e + 1) ≤ 2 ^ 62 := Nat.pow_le_pow_right (by decide) (by omega)
      exact_mod_cast this
    have h3 : (0 : Int) < 2 ^ (e + 1) := by positivity
    rw [h1, Int.emod_eq_of_lt (by linarith [show (0:Int) < 2 ^ 63 by norm_num])]
    · ring
    · have : (2 : Int) ^ 64 = 2 ^ 62 + 2 ^ 62 + 2 ^ 63 := by norm_num
      have : (0 : Int) < 2 ^ 62 := by norm_num
      linarith
  · decide +kernel
  · rcases Nat.lt_trichotomy e 63 with h' | rfl | h'
    · omega
    · decide +kernel
    · rw [if_neg (by omega), if_neg (by omega), if_neg (by omega), if_neg (by omega)]
      decide +kernel

theorem isInt_fin {m e : Nat} (neg : Bool) (h : m % 2 = 1 ∨ e = 0) : (Dbl.fin neg m e).isInt = decide (e = 0) := by
  unfold Dbl.isInt
  cases e with
  | zero => simp [Nat.mod_one]
  | succ e =>
    have h1 : m % 2 = 1 := by rcases h with h | h <;> omega
    have : ¬ m % 2 ^ (e + 1) = 0 := by
      intro h0
      have h2 : 2 ∣ m := Dvd.dvd.trans (Dvd.intro_left (2 ^ e) (pow_succ 2 e).symm) (Nat.dvd_of_mod_eq_zero h0)
      omega
    simp [this]

/-- The doubling loop on a finite double makes exactly `e` turns. -/
theorem doubling_fin (neg : Bool) : ∀ (e m fuel j : Nat), (m % 2 = 1 ∨ e = 0) →
    doubling fuel (.fin neg m e) (shl64 j) = if e < fuel then some (.fin neg m 0, shl64 (j + e)) else none := by
  intro e
  induction e with
  | zero =>
    intro m fuel j h
    cases fuel with
    | zero => rfl
    | succ fuel => rw [doubling, isInt_fin neg h]; simp
  | succ e ih =>
    intro m fuel j h
    cases fuel with
    | zero => rfl
    | succ fuel =>
      rw [doubling, isInt_fin neg h]
      have h1 : m % 2 = 1 := by rcases h with h | h <;> omega
      simp only [Nat.add_eq_zero_iff, one_ne_zero, and_false, decide_false, Bool.false_eq_true, if_false, Dbl.double]
      rw [shl1_shl64, ih m fuel (j + 1) (Or.inl h1)]
      simp [Nat.add_comm, Nat.add_left_comm]

/-- **C17** The loop version on a finite double is the closed form used in the theorems, as
soon as `e + 1` tests of the loop condition are made. -/
theorem C17_closed_form (neg : Bool) (m e fuel : Nat) (md : Int) (h : m % 2 = 1 ∨ e = 0) (hf : e < fuel) :
    rationalApproxD fuel (.fin neg m e) md = some (rationalApprox neg m e md) := by
  unfold rationalApproxD rationalApprox
  by_cases hmd : md ≤ 1
  · rw [if_pos hmd, if_pos hmd]; rfl
  · rw [if_neg hmd, if_neg hmd]
    have hs : ∀ f, doubling fuel f 1 = doubling fuel f (shl64 0) := fun _ => rfl
    by_cases hl : (Dbl.fin neg m e).ltZero = true
    · have hneg : neg = true := by
        unfold Dbl.ltZero at hl; simp at hl; exact hl.1
      subst hneg
      rw [if_pos hl, hs]
      unfold Dbl.negate
      rw [doubling_fin _ e m fuel 0 h, if_pos hf]
      unfold Dbl.ltZero at hl ⊢
      simp [hl, raTail, Dbl.toI64]
    · rw [if_neg hl, hs, doubling_fin _ e m fuel 0 h, if_pos hf]
      unfold Dbl.ltZero at hl ⊢
      cases neg with
      | false => simp [raTail, Dbl.toI64]
      | true =>
        have : m = 0 := by simpa using hl
        subst this
        simp [raTail, Dbl.toI64]

/-- **C17 fails** for NaN: the doubling loop never ends. -/
theorem C17_nan_diverges (md : Int) (h : 2 ≤ md) : ∀ fuel, rationalApproxD fuel .nan md = none := by
  intro fuel
  unfold rationalApproxD
  rw [if_neg (by omega)]
  have : ∀ fuel n, doubling fuel .nan n = none := by
    intro fuel
    induction fuel with
    | zero => intro n; rfl
    | succ fuel ih => intro n; exact ih _
  simp [Dbl.ltZero, this]

/-- Infinities end the loop at once, and their conversion to `int64_t` is undefined. -/
theorem C17_inf_undefined (neg : Bool) (md : Int) (fuel : Nat) : rationalApproxD (fuel + 1) (.inf neg) md = some .ub := by
  unfold rationalApproxD
  cases neg <;> by_cases h : md ≤ 1 <;> simp [h, Dbl.toI64, doubling, Dbl.isInt, Dbl.ltZero, Dbl.negate, raTail]

/-- **C17** For every finite double `±m/2^e` with `m < 2^63` and `e ≤ 62`, and every bound
`2 ≤ md ≤ 2^43`, the call returns a fraction `±p/q` in lowest terms with `1 ≤ q ≤ md`, the
sign of the input, at distance at most `1/md` from it, and inside the unit interval when the
input is.  (For `e = 62` the bound `md ≤ 2^43` also excludes the overflow of `x * 2`.) -/
theorem C17_approximation (neg : Bool) (m e : Nat) (md : Int) (hm : m < 2 ^ 63) (he : e ≤ 62) (hmd : 2 ≤ md) (hmd2 : md ≤ 2 ^ 43) :
    ∃ p q : Nat, rationalApprox neg m e md = .ok (if neg then -(p : Int) else (p : Int), (q : Int)) ∧ 1 ≤ q ∧ (q : Int) ≤ md ∧
      Nat.gcd p q = 1 ∧ |(m : ℚ) / 2 ^ e - (p : ℚ) / q| ≤ 1 / md ∧ (m ≤ 2 ^ e → p ≤ q) := by
  have hmI : (m : Int) < 2 ^ 63 := by exact_mod_cast hm
  have hN : shl64 e = ((2 ^ e : Nat) : Int) := by
    unfold shl64
    rw [if_pos (by omega)]; push_cast; rfl
  have hNp : 0 < shl64 e := by rw [hN]; exact_mod_cast Nat.two_pow_pos e
  have hN62 : shl64 e ≤ 2 ^ 62 := by
    rw [hN]
    have : (2 : Nat) ^ e ≤ 2 ^ 62 := Nat.pow_le_pow_right (by decide) he
    exact_mod_cast this
  have h43 : (2 : Int) ^ 43 ≤ 2 ^ 61 := by norm_num
  obtain ⟨hf, hi⟩ := ra_first m (shl64 e) md 63 (by omega) hNp (by positivity) hmI
  obtain ⟨s', hs', hP, hC⟩ := ra_full hN62 (Or.inr (by linarith)) hmI 63 0 _ (-1) hi (Or.inr rfl) (by simp) rfl (by simp) (by simp)
  have hC := hC hmd2
  obtain ⟨hp, kp, kl, hu, u, v, huv⟩ := hP
  obtain ⟨p, hpe⟩ := Int.eq_ofNat_of_zero_le hp
  obtain ⟨q, hqe⟩ := Int.eq_ofNat_of_zero_le (show 0 ≤ s'.k1 by linarith)
  rw [hpe, hqe] at huv
  rw [hqe] at kp kl
  unfold RaClose at hC
  rw [hpe, hqe, hN] at hC
  refine ⟨p, q, ?_, by exact_mod_cast kp, kl, ?_, ?_, ?_⟩
  · unfold rationalApprox
    rw [if_neg (by omega), i64_ok (by positivity) hmI]
    simp only [Out.ok_bind, hf, hs', Out.pure_eq, hpe, hqe]
    cases neg with
    | false => simp
    | true =>
      by_cases hm0 : m = 0
      · subst hm0
        -- the input is zero, and so is the result
        have h1 := hu (by rw [hN]; push_cast; positivity)
        have : p = 0 := by
          have h2 := hC.2
          push_cast at h2
          have hq : (q : Int) ≤ md := kl
          by_contra hpp
          have hp1 : (1 : Int) ≤ p := by omega
          have hNI : (0 : Int) < 2 ^ e := by positivity
          have h3 : (2 : Int) ^ e * p * md ≤ 2 ^ e * q := by linarith
          have h4 : (p : Int) * md ≤ q := by
            by_contra hc
            have : (2 : Int) ^ e * q < 2 ^ e * (p * md) := mul_lt_mul_of_pos_left (by omega) hNI
            linarith [mul_assoc ((2:Int) ^ e) p md]
          have h5 : md ≤ (p : Int) * md := by nlinarith
          have hqm : (q : Int) = md := by linarith
          -- then `q = md`, `p = 1`: excluded, since the run stops after the first turn
          have : s'.k1 = 1 := by
            have h6 : raLoop md 63 false { d := shl64 e, n := ((0 : Nat) : Int) % shl64 e, h0 := 1, h1 := ((0 : Nat) : Int) / shl64 e, k0 := 0, k1 := 1 } =
                .ok { d := shl64 e, n := ((0 : Nat) : Int) % shl64 e, h0 := 1, h1 := ((0 : Nat) : Int) / shl64 e, k0 := 0, k1 := 1 } := by
              rw [raLoop]; simp
            rw [h6] at hs'
            rw [← Out.ok.inj hs']
          rw [this] at hqe
          omega
        subst this; simp
      · simp [hm0]
  · have : IsCoprime (p : Int) (q : Int) := ⟨u, v, by linarith [mul_comm u (p:Int), mul_comm v (q:Int)]⟩
    exact_mod_cast Int.isCoprime_iff_gcd_eq_one.mp this
  · have hq : (0 : ℚ) < q := by exact_mod_cast (by linarith : (0 : Int) < q)
    have hNq : (0 : ℚ) < 2 ^ e := by positivity
    have hmdq : (0 : ℚ) < md := by exact_mod_cast (by linarith : (0 : Int) < md)
    have h1 : (((m : Int) * q - ((2 ^ e : Nat) : Int) * p) * md : ℚ) ≤ 2 ^ e * q := by exact_mod_cast hC.1
    have h2 : (-(((m : Int) * q - ((2 ^ e : Nat) : Int) * p) * md) : ℚ) ≤ 2 ^ e * q := by exact_mod_cast hC.2
    push_cast at h1 h2
    have e1 : (m : ℚ) / 2 ^ e - (p : ℚ) / q = (m * q - 2 ^ e * p) / (2 ^ e * q) := by
      field_simp
    rw [e1, abs_div, abs_of_pos (show (0:ℚ) < 2 ^ e * q by positivity), div_le_div_iff₀ (by positivity) hmdq]
    rw [one_mul, ← abs_of_pos hmdq, ← abs_mul]
    exact abs_le.mpr ⟨by linarith, by linarith⟩
  · intro h
    have h1 := hu (by rw [hN]; exact_mod_cast h)
    rw [hpe, hqe] at h1
    exact_mod_cast h1

/-- Concrete doubles: 0.02, a third and -0.3 (each with its 53-bit mantissa). -/
example : rationalApprox false 5764607523034235 58 4096 = .ok (1, 50) ∧ rationalApprox true 5404319552844595 54 4096 = .ok (-3, 10) := by
  decide +kernel

/-! ### The doubling counter at `2^63` -/

theorem i64_eq {x y : Int} (h : i64 x = .ok y) : y = x := by
  unfold i64 at h
  split at h
  · exact (Out.ok.inj h).symm
  · exact absurd h (by simp)

/-- Signs alternate: `ε` is `1` or `-1`. -/
structure AltInv (md ε : Int) (s : RaState) (d' n' H H0 K K0 : Int) : Prop where
  eps : ε = 1 ∨ ε = -1
  d : s.d = ε * d'
  n : s.n = -ε * n'
  n0 : 0 ≤ n'
  nd : n' < d'
  h1 : s.h1 = ε * H
  h0 : s.h0 = -ε * H0
  k1 : s.k1 = -ε * K
  k0 : s.k0 = ε * K0
  Hp : 1 ≤ H
  H0p : 0 ≤ H0
  Kp : 1 ≤ K
  K0p : 1 ≤ K0
  z : H0 = 0 → K0 = 1
  b1 : ε = 1 → K0 < md
  b2 : ε = -1 → K < md

theorem alt_result {ε H K : Int} (he : ε = 1 ∨ ε = -1) (hH : 1 ≤ H) (hK : 1 ≤ K) : (ε * H) * (-ε * K) < 0 := by
  have : 0 < H * K := by positivity
  rcases he with rfl | rfl <;> nlinarith

theorem raLoop_alt {md : Int} (hmd : 2 ≤ md) : ∀ (rem : Nat) (ε : Int) (s s' : RaState) (d' n' H H0 K K0 : Int),
    AltInv md ε s d' n' H H0 K K0 → raLoop md rem false s = .ok s' → (s'.h1 = 0 ∧ s'.k1 = 1) ∨ s'.h1 * s'.k1 < 0 := by
  intro rem
  induction rem with
  | zero =>
    intro ε s s' d' n' H H0 K K0 hi h
    obtain rfl := Out.ok.inj h
    right; rw [hi.h1, hi.k1]; exact alt_result hi.eps hi.Hp hi.Kp
  | succ rem ih =>
    intro ε s s' d' n' H H0 K K0 hi h
    obtain ⟨eps, hd, hn, n0, nd, h1, h0, k1, k0, Hp, H0p, Kp, K0p, z, b1, b2⟩ := hi
    have hres : s.h1 * s.k1 < 0 := by rw [h1, k1]; exact alt_result eps Hp Kp
    by_cases hnz : n' = 0
    · have : s.n = 0 := by rw [hn, hnz]; ring
      rw [raLoop] at h
      simp [this] at h
      subst h; exact Or.inr hres
    · have hnp : 0 < n' := lt_of_le_of_ne n0 (Ne.symm hnz)
      have hsn : s.n ≠ 0 := by rw [hn]; rcases eps with rfl | rfl <;> simp <;> omega
      have htd : s.d.tdiv s.n = -(d' / n') := by
        have hd0 : d'.tdiv n' = d' / n' := Int.tdiv_eq_ediv_of_nonneg (by linarith)
        rw [hd, hn]; rcases eps with rfl | rfl <;> simp [Int.neg_tdiv, Int.tdiv_neg, hd0]
      have htm : s.d.tmod s.n = ε * (d' % n') := by
        have hd0 : d'.tmod n' = d' % n' := Int.tmod_eq_emod_of_nonneg (by linarith)
        rw [hd, hn]; rcases eps with rfl | rfl <;> simp [Int.neg_tmod, Int.tmod_neg, hd0]
      have hα : 1 ≤ d' / n' := by
        apply Int.le_ediv_of_mul_le hnp; linarith
      have hr0 : 0 ≤ d' % n' := Int.emod_nonneg _ hnz
      have hrl : d' % n' < n' := Int.emod_lt_of_pos _ hnp
      generalize d' / n' = α at *
      generalize d' % n' = r at *
      rw [raLoop] at h
      simp only [ne_eq, hsn, not_false_eq_true, if_true] at h
      obtain ⟨a, ha, h⟩ := Out.bind_eq_ok.mp h
      have ha := i64_eq ha
      rw [htd] at ha
      subst ha
      rw [if_neg (by rintro ⟨_, h0⟩; omega), if_neg (fun h : False => h)] at h
      obtain ⟨q1, hq1, h⟩ := Out.bind_eq_ok.mp h
      obtain ⟨q2, hq2, h⟩ := Out.bind_eq_ok.mp h
      have hq1 := i64_eq hq1
      have hq2 := i64_eq hq2
      have hq2' : q2 = ε * (α * K + K0) := by rw [hq2, hq1, k1, k0]; ring
      have hpos : 1 ≤ α * K + K0 := by nlinarith
      by_cases hc : q2 ≥ md
      · rw [if_pos hc] at h
        have he : ε = 1 := by
          rcases eps with he | he
          · exact he
          · rw [he] at hq2'; omega
        subst he
        have hK0 := b1 rfl
        rw [if_neg (by rw [k1]; omega)] at h
        have hx : (md - s.k0).tdiv s.k1 = -((md - K0) / K) := by
          rw [k0, k1]; simp [Int.tdiv_neg, Int.tdiv_eq_ediv_of_nonneg (show 0 ≤ md - K0 by linarith)]
        have hX0 : 0 ≤ (md - K0) / K := Int.ediv_nonneg (by linarith) (by linarith)
        rw [hx] at h
        generalize (md - K0) / K = X at *
        obtain ⟨y, hy, h⟩ := Out.bind_eq_ok.mp h
        split at h
        · obtain ⟨h2, hh2, h⟩ := Out.bind_eq_ok.mp h
          obtain ⟨k2, hk2, h⟩ := Out.bind_eq_ok.mp h
          have hh2 := i64_eq hh2
          have hk2 := i64_eq hk2
          rw [h1, h0] at hh2
          rw [k1, k0] at hk2
          obtain rfl := Out.ok.inj h
          simp only
          have e1 : h2 = -(X * H + H0) := by rw [hh2]; ring
          have e2 : k2 = X * K + K0 := by rw [hk2]; ring
          have e3 : 0 ≤ X * H := by positivity
          have e4 : 0 ≤ X * K := by positivity
          by_cases hz : X * H + H0 = 0
          · left
            have hH0 : H0 = 0 := by linarith
            have hX : X = 0 := by
              by_contra hX
              have : 1 ≤ X := by omega
              nlinarith
            rw [e1, e2, hz, hX, z hH0]; simp
          · right
            rw [e1, e2]
            have : 0 < X * H + H0 := by omega
            have : 0 < X * K + K0 := by linarith
            nlinarith
        · obtain rfl := Out.ok.inj h
          exact Or.inr hres
      · rw [if_neg hc] at h
        obtain ⟨h2, hh2, h⟩ := Out.bind_eq_ok.mp h
        obtain ⟨k2, hk2, h⟩ := Out.bind_eq_ok.mp h
        have hh2 := i64_eq hh2
        have hk2 := i64_eq hk2
        refine ih (-ε) _ s' n' r (α * H + H0) H (α * K + K0) K ?_ h
        refine ⟨by rcases eps with rfl | rfl <;> simp, ?_, ?_, hr0, hrl, ?_, ?_, ?_, ?_, ?_, by linarith, hpos, Kp, ?_, ?_, ?_⟩
        · simp only; rw [hn]
        · simp only; rw [htm]; ring
        · simp only; rw [hh2, h1, h0]; ring
        · simp only; rw [h1]; ring
        · simp only; rw [hk2, k1, k0]; ring
        · simp only; rw [k1]
        · nlinarith
        · intro hH; omega
        · intro he; exact b2 (by linarith)
        · intro he
          have : ε = 1 := by linarith
          subst this
          linarith

/-- **C17 fails** for every positive double that needs exactly 63 doublings: the doubling
counter is `-2^63`, and whatever the call returns is either `0/1` or a fraction whose numerator
and denominator have opposite signs (for a positive input). -/
theorem C17_wrapped_counter (m : Nat) (md p q : Int) (hm0 : 0 < m) (hm : m < 2 ^ 63) (hmd : 2 ≤ md)
    (h : rationalApprox false m 63 md = .ok (p, q)) : (p = 0 ∧ q = 1) ∨ p * q < 0 := by
  have hmI : (m : Int) < 2 ^ 63 := by exact_mod_cast hm
  have hmp : (0 : Int) < m := by exact_mod_cast hm0
  unfold rationalApprox at h
  rw [if_neg (by omega), i64_ok (by positivity) hmI] at h
  simp only [Out.ok_bind, Bool.false_and, Bool.false_eq_true, if_false] at h
  obtain ⟨s', hs, h⟩ := Out.bind_eq_ok.mp h
  obtain ⟨rfl, rfl⟩ := Prod.mk.inj (Out.ok.inj h)
  have hsh : shl64 63 = -(2 ^ 63) := rfl
  rw [hsh] at hs
  have hN : (2 : Int) ^ 63 = 9223372036854775808 := by norm_num
  -- the first turn
  have t1 : (m : Int).tdiv (-(2 ^ 63)) = 0 := by
    rw [Int.tdiv_neg, Int.tdiv_eq_ediv_of_nonneg hmp.le, Int.ediv_eq_zero_of_lt hmp.le hmI]; rfl
  have t2 : (m : Int).tmod (-(2 ^ 63)) = m := by
    rw [Int.tmod_neg, Int.tmod_eq_emod_of_nonneg hmp.le, Int.emod_eq_of_lt hmp.le hmI]
  have z0 : i64 0 = .ok 0 := rfl
  have z1 : i64 1 = .ok 1 := rfl
  rw [raLoop] at hs
  simp only [t1, t2, z0, z1, ne_eq, show ¬ (-(2 ^ 63) : Int) = 0 by norm_num, not_false_eq_true, if_true, Out.ok_bind, Bool.not_true,
    Bool.false_eq_true, false_and, if_false, zero_mul, zero_add, mul_zero, add_zero] at hs
  rw [if_neg (by omega)] at hs
  -- the second turn
  have u1 : (-(2 ^ 63) : Int).tdiv m = -(2 ^ 63 / (m : Int)) := by
    rw [Int.neg_tdiv, Int.tdiv_eq_ediv_of_nonneg (by norm_num)]
  have u2 : (-(2 ^ 63) : Int).tmod m = -(2 ^ 63 % (m : Int)) := by
    rw [Int.neg_tmod, Int.tmod_eq_emod_of_nonneg (by norm_num)]
  have hα : 1 ≤ 2 ^ 63 / (m : Int) := by
    apply Int.le_ediv_of_mul_le hmp; linarith
  have hr0 : 0 ≤ 2 ^ 63 % (m : Int) := Int.emod_nonneg _ (by omega)
  have hrl : 2 ^ 63 % (m : Int) < m := Int.emod_lt_of_pos _ hmp
  generalize 2 ^ 63 / (m : Int) = α at *
  generalize 2 ^ 63 % (m : Int) = r at *
  rw [raLoop] at hs
  simp only [u1, u2, ne_eq, show ¬ (m : Int) = 0 by omega, not_false_eq_true, if_true] at hs
  obtain ⟨a, ha, hs⟩ := Out.bind_eq_ok.mp hs
  have ha := i64_eq ha
  subst ha
  rw [if_neg (by rintro ⟨_, h0⟩; omega)] at hs
  simp only [if_false] at hs
  obtain ⟨q1, hq1, hs⟩ := Out.bind_eq_ok.mp hs
  obtain ⟨q2, hq2, hs⟩ := Out.bind_eq_ok.mp hs
  have hq1 := i64_eq hq1
  have hq2 := i64_eq hq2
  rw [if_neg (by omega)] at hs
  obtain ⟨h2, hh2, hs⟩ := Out.bind_eq_ok.mp hs
  obtain ⟨k2, hk2, hs⟩ := Out.bind_eq_ok.mp hs
  have hh2 := i64_eq hh2
  have hk2 := i64_eq hk2
  refine raLoop_alt hmd 62 1 _ s' m r 1 0 α 1 ⟨Or.inl rfl, by simp, by simp, hr0, hrl, ?_, by simp, ?_, by simp, by decide, by decide,
    hα, by decide, fun _ => rfl, fun _ => by omega, fun h => absurd h (by decide)⟩ hs
  · simp only; rw [hh2]; ring
  · simp only; rw [hk2]; ring

/-- `0.0007`, `0.0006` and `0.0008` come out with a negative numerator; `7/2^63` overflows. -/
theorem C17_small_input_sign :
    rationalApprox false 6456360425798343 63 4096 = .ok (-1, 1429) ∧ rationalApprox false 5534023222112865 63 4096 = .ok (-1, 1667) ∧
    rationalApprox false 7378697629483821 63 4096 = .ok (-1, 1250) ∧ rationalApprox false 7 63 4096 = .ub := by
  decide +kernel

end Cardano.Util
