import Verif.Model.Ada
import Mathlib.Tactic.Linarith
import Mathlib.Tactic.NormNum
import Mathlib.Tactic.Ring
import Mathlib.Tactic.FieldSimp
import Mathlib.Tactic.Positivity

/-! # C80: conversions between ADA and lovelace -/

namespace Cardano.Ada

/-! ### Rounding -/

theorem rne_cases (q : ℚ) : (rne q = ⌊q⌋ ∧ q - ⌊q⌋ ≤ 1 / 2) ∨ (rne q = ⌊q⌋ + 1 ∧ 1 / 2 ≤ q - ⌊q⌋) := by
  unfold rne
  split
  · left; exact ⟨rfl, le_of_lt ‹_›⟩
  split
  · right; exact ⟨rfl, le_of_lt ‹_›⟩
  split
  · left; exact ⟨rfl, by linarith⟩
  · right; exact ⟨rfl, by linarith⟩

theorem rne_int (n : ℤ) : rne n = n := by
  unfold rne
  simp

theorem rne_err (q : ℚ) : |(rne q : ℚ) - q| ≤ 1 / 2 := by
  have h1 := Int.floor_le q
  have h2 := Int.lt_floor_add_one q
  rw [abs_le]
  rcases rne_cases q with ⟨h, h'⟩ | ⟨h, h'⟩ <;> rw [h] <;> push_cast <;> constructor <;> linarith

theorem rne_mono {p q : ℚ} (h : p ≤ q) : rne p ≤ rne q := by
  have hf := Int.floor_mono h
  rcases eq_or_lt_of_le hf with e | hlt
  · by_contra hc
    rcases rne_cases p with ⟨e1, g1⟩ | ⟨e1, g1⟩
    · rcases rne_cases q with ⟨e2, _⟩ | ⟨e2, _⟩ <;> omega
    · rcases rne_cases q with ⟨e2, g2⟩ | ⟨e2, g2⟩
      · rw [e] at g1
        have hpq : p = q := by linarith
        rw [hpq] at hc
        exact hc (le_refl _)
      · omega
  · rcases rne_cases p with ⟨e1, _⟩ | ⟨e1, _⟩ <;> rcases rne_cases q with ⟨e2, _⟩ | ⟨e2, _⟩ <;> omega

theorem two_zpow_pos (e : ℤ) : (0 : ℚ) < 2 ^ e := zpow_pos (by norm_num) e

theorem log_spec {q : ℚ} (h : 0 < q) : (2 : ℚ) ^ Int.log 2 q ≤ q ∧ q < 2 ^ (Int.log 2 q + 1) := by
  have h1 := Int.zpow_log_le_self (b := 2) (r := q) (by norm_num) h
  have h2 := Int.lt_zpow_succ_log_self (b := 2) (by norm_num) q
  exact ⟨by exact_mod_cast h1, by exact_mod_cast h2⟩

theorem log_eq {q : ℚ} {k : ℤ} (h1 : (2 : ℚ) ^ k ≤ q) (h2 : q < 2 ^ (k + 1)) : Int.log 2 q = k := by
  have hq : 0 < q := lt_of_lt_of_le (two_zpow_pos k) h1
  obtain ⟨g1, g2⟩ := log_spec hq
  have a : Int.log 2 q < k + 1 := (zpow_lt_zpow_iff_right₀ (by norm_num : (1 : ℚ) < 2)).mp (lt_of_le_of_lt g1 h2)
  have b : k < Int.log 2 q + 1 := (zpow_lt_zpow_iff_right₀ (by norm_num : (1 : ℚ) < 2)).mp (lt_of_le_of_lt h1 g2)
  omega

theorem flPos_err {q : ℚ} (h : 0 < q) : |flPos q - q| ≤ 2 ^ lastPlace q / 2 := by
  unfold flPos
  have hp := two_zpow_pos (lastPlace q)
  have h1 := rne_err (q / 2 ^ lastPlace q)
  have e : (rne (q / 2 ^ lastPlace q) : ℚ) * 2 ^ lastPlace q - q =
      ((rne (q / 2 ^ lastPlace q) : ℚ) - q / 2 ^ lastPlace q) * 2 ^ lastPlace q := by
    field_simp
  rw [e, abs_mul, abs_of_pos hp]
  calc _ ≤ 1 / 2 * (2 : ℚ) ^ lastPlace q := mul_le_mul_of_nonneg_right h1 hp.le
    _ = _ := by ring

/-- A number with a short significand is not changed by rounding. -/
theorem flPos_exact (m : ℕ) (k : ℤ) (hm0 : 0 < m) (hm : m < 2 ^ 53) (hk : -1074 ≤ k) :
    flPos ((m : ℚ) * 2 ^ k) = (m : ℚ) * 2 ^ k := by
  have hpk := two_zpow_pos k
  have hq : (0 : ℚ) < (m : ℚ) * 2 ^ k := mul_pos (by exact_mod_cast hm0) hpk
  have hl : lastPlace ((m : ℚ) * 2 ^ k) ≤ k := by
    unfold lastPlace
    refine max_le ?_ hk
    obtain ⟨g1, -⟩ := log_spec hq
    have : (m : ℚ) * 2 ^ k < 2 ^ (53 + k) := by
      rw [zpow_add₀ (by norm_num)]
      apply mul_lt_mul_of_pos_right _ hpk
      exact_mod_cast hm
    have := (zpow_lt_zpow_iff_right₀ (by norm_num : (1 : ℚ) < 2)).mp (lt_of_le_of_lt g1 this)
    omega
  unfold flPos
  generalize lastPlace ((m : ℚ) * 2 ^ k) = e at hl
  have hp := two_zpow_pos e
  obtain ⟨d, hd⟩ : ∃ d : ℕ, k = e + d := ⟨(k - e).toNat, by omega⟩
  have hi : (m : ℚ) * 2 ^ k / 2 ^ e = ((m * 2 ^ d : ℤ) : ℚ) := by
    rw [hd, zpow_add₀ (by norm_num)]
    push_cast
    rw [zpow_natCast]
    field_simp
  rw [hi, rne_int, ← hi]
  field_simp

theorem lastPlace_mono {p q : ℚ} (hp : 0 < p) (h : p ≤ q) : lastPlace p ≤ lastPlace q := by
  unfold lastPlace
  have := Int.log_mono_right (b := 2) hp h
  exact max_le_max (by omega) (le_refl _)

theorem flPos_mono {p q : ℚ} (hp : 0 < p) (h : p ≤ q) : flPos p ≤ flPos q := by
  have hq : 0 < q := lt_of_lt_of_le hp h
  have hP := two_zpow_pos (lastPlace p)
  have hQ := two_zpow_pos (lastPlace q)
  rcases eq_or_lt_of_le (lastPlace_mono hp h) with e | hlt
  · unfold flPos
    rw [e]
    apply mul_le_mul_of_nonneg_right _ hQ.le
    exact_mod_cast rne_mono (by rw [div_le_div_iff_of_pos_right hQ]; exact h)
  · have hlq : lastPlace q = Int.log 2 q - 52 := by unfold lastPlace at *; omega
    have hlg : Int.log 2 p < Int.log 2 q := by unfold lastPlace at *; omega
    obtain ⟨-, p2⟩ := log_spec hp
    obtain ⟨q1, -⟩ := log_spec hq
    -- everything below 2^n rounds to at most 2^n, everything above to at least 2^n
    have hpl : lastPlace p ≤ Int.log 2 q := by omega
    have a1 : flPos p ≤ 2 ^ Int.log 2 q := by
      obtain ⟨d, hd⟩ : ∃ d : ℕ, Int.log 2 q = lastPlace p + d := ⟨(Int.log 2 q - lastPlace p).toNat, by omega⟩
      have : rne (p / 2 ^ lastPlace p) ≤ rne (((2 ^ d : ℤ) : ℚ)) := by
        apply rne_mono
        rw [div_le_iff₀ hP]
        push_cast
        rw [← zpow_natCast, ← zpow_add₀ (by norm_num)]
        have : (2 : ℚ) ^ (Int.log 2 p + 1) ≤ 2 ^ ((d : ℤ) + lastPlace p) :=
          zpow_le_zpow_right₀ (by norm_num) (by omega)
        exact le_trans p2.le this
      rw [rne_int] at this
      unfold flPos
      calc _ ≤ ((2 ^ d : ℤ) : ℚ) * 2 ^ lastPlace p := mul_le_mul_of_nonneg_right (by exact_mod_cast this) hP.le
        _ = _ := by rw [hd, zpow_add₀ (by norm_num)]; push_cast; rw [zpow_natCast]; ring
    have a2 : (2 : ℚ) ^ Int.log 2 q ≤ flPos q := by
      have : rne (((2 ^ 52 : ℤ) : ℚ)) ≤ rne (q / 2 ^ lastPlace q) := by
        apply rne_mono
        rw [le_div_iff₀ hQ]
        push_cast
        rw [hlq]
        calc ((2 : ℚ) ^ 52) * 2 ^ (Int.log 2 q - 52) = 2 ^ (52 + (Int.log 2 q - 52)) := by
              rw [zpow_add₀ (by norm_num)]; norm_cast
          _ = 2 ^ Int.log 2 q := by congr 1; omega
          _ ≤ q := q1
      rw [rne_int] at this
      unfold flPos
      calc (2 : ℚ) ^ Int.log 2 q = 2 ^ (52 + lastPlace q) := by rw [hlq]; congr 1; omega
        _ = ((2 ^ 52 : ℤ) : ℚ) * 2 ^ lastPlace q := by rw [zpow_add₀ (by norm_num)]; norm_cast
        _ ≤ _ := mul_le_mul_of_nonneg_right (by exact_mod_cast this) hQ.le
    exact le_trans a1 a2

theorem flPos_nonneg {q : ℚ} (h : 0 < q) : 0 ≤ flPos q := by
  unfold flPos
  have hP := two_zpow_pos (lastPlace q)
  have : rne (((0 : ℤ) : ℚ)) ≤ rne (q / 2 ^ lastPlace q) := rne_mono (by push_cast; exact div_nonneg h.le hP.le)
  rw [rne_int] at this
  exact mul_nonneg (by exact_mod_cast this) hP.le

theorem fl_neg (q : ℚ) : fl (-q) = -fl q := by
  unfold fl
  rcases lt_trichotomy q 0 with h | h | h
  · rw [if_pos (by linarith), if_neg (by linarith), if_pos h, neg_neg]
  · subst h; simp
  · rw [if_neg (by linarith), if_pos (by linarith), if_pos h, neg_neg]

/-- Rounding preserves order. -/
theorem fl_mono {p q : ℚ} (h : p ≤ q) : fl p ≤ fl q := by
  unfold fl
  by_cases hp : 0 < p
  · rw [if_pos hp, if_pos (lt_of_lt_of_le hp h)]
    exact flPos_mono hp h
  · rw [if_neg hp]
    by_cases hq : 0 < q
    · rw [if_pos hq]
      have := flPos_nonneg hq
      split
      · have := flPos_nonneg (show 0 < -p by linarith); linarith
      · exact this
    · rw [if_neg hq]
      by_cases hq2 : q < 0
      · rw [if_pos hq2, if_pos (lt_of_le_of_lt h hq2)]
        have := flPos_mono (show 0 < -q by linarith) (show -q ≤ -p by linarith)
        linarith
      · rw [if_neg hq2]
        split
        · have := flPos_nonneg (show 0 < -p by linarith); linarith
        · exact le_refl _

/-- Integers with a short significand are exact. -/
theorem fl_exact (m : ℕ) (k : ℤ) (hm : m < 2 ^ 53) (hk : -1074 ≤ k) : fl ((m : ℚ) * 2 ^ k) = (m : ℚ) * 2 ^ k := by
  rcases Nat.eq_zero_or_pos m with rfl | h
  · simp [fl]
  · have : (0 : ℚ) < (m : ℚ) * 2 ^ k := mul_pos (by exact_mod_cast h) (two_zpow_pos k)
    unfold fl
    rw [if_pos this]
    exact flPos_exact m k h hm hk

theorem fl_nat (n : ℕ) (h : n ≤ 2 ^ 53) : fl n = n := by
  rcases Nat.lt_or_eq_of_le h with h | rfl
  · have := fl_exact n 0 h (by norm_num)
    simpa using this
  · have := fl_exact 1 53 (by norm_num) (by norm_num)
    norm_num at this ⊢
    exact this

/-- Relative error of rounding a number that is not tiny. -/
theorem fl_rel {q : ℚ} (h : (2 : ℚ) ^ (-1000 : ℤ) ≤ q) : |fl q - q| ≤ q / 2 ^ 53 := by
  have hq : 0 < q := lt_of_lt_of_le (two_zpow_pos _) h
  unfold fl
  rw [if_pos hq]
  refine le_trans (flPos_err hq) ?_
  obtain ⟨g1, g2⟩ := log_spec hq
  have hl : -1001 < Int.log 2 q := by
    have := (zpow_lt_zpow_iff_right₀ (by norm_num : (1 : ℚ) < 2)).mp (lt_of_le_of_lt h g2)
    omega
  have hlp : lastPlace q = Int.log 2 q - 52 := by unfold lastPlace; omega
  rw [hlp]
  have e : (2 : ℚ) ^ (Int.log 2 q - 52) / 2 = 2 ^ Int.log 2 q / 2 ^ 53 := by
    rw [zpow_sub₀ (by norm_num)]
    norm_num
    ring
  rw [e]
  exact div_le_div_of_nonneg_right g1 (by norm_num)

/-! ### The rounding is IEEE 754's -/

/-- The finite binary64 numbers (exponent not bounded above, see the model). -/
def IsDouble (d : ℚ) : Prop := ∃ (m : ℤ) (k : ℤ), |m| < 2 ^ 53 ∧ -1074 ≤ k ∧ d = m * 2 ^ k

theorem rne_nearest (q : ℚ) (n : ℤ) : |(rne q : ℚ) - q| ≤ |(n : ℚ) - q| := by
  have h1 := Int.floor_le q
  have h2 := Int.lt_floor_add_one q
  rcases le_or_gt n ⌊q⌋ with hn | hn
  · have hn' : (n : ℚ) ≤ ⌊q⌋ := by exact_mod_cast hn
    rw [abs_of_nonpos (show (n : ℚ) - q ≤ 0 by linarith), abs_le]
    rcases rne_cases q with ⟨h, h'⟩ | ⟨h, h'⟩ <;> rw [h] <;> push_cast <;> constructor <;> linarith
  · have hn' : (⌊q⌋ : ℚ) + 1 ≤ n := by exact_mod_cast hn
    rw [abs_of_nonneg (show 0 ≤ (n : ℚ) - q by linarith), abs_le]
    rcases rne_cases q with ⟨h, h'⟩ | ⟨h, h'⟩ <;> rw [h] <;> push_cast <;> constructor <;> linarith

theorem rne_even (q : ℚ) (h : q - ⌊q⌋ = 1 / 2) : rne q % 2 = 0 := by
  unfold rne
  rw [if_neg (by linarith), if_neg (by linarith)]
  split <;> omega

theorem flPos_nearest {q : ℚ} (h : 0 < q) (d : ℚ) (hd : IsDouble d) : |flPos q - q| ≤ |d - q| := by
  have hp := two_zpow_pos (lastPlace q)
  have key : ∀ n : ℤ, |flPos q - q| ≤ |(n : ℚ) * 2 ^ lastPlace q - q| := by
    intro n
    have e : ∀ t : ℚ, t * 2 ^ lastPlace q - q = (t - q / 2 ^ lastPlace q) * 2 ^ lastPlace q := by
      intro t; field_simp
    unfold flPos
    rw [e, e, abs_mul, abs_mul, abs_of_pos hp]
    exact mul_le_mul_of_nonneg_right (rne_nearest _ _) hp.le
  obtain ⟨m, k, hm, hk, rfl⟩ := hd
  rcases le_or_gt (lastPlace q) k with hle | hlt
  · obtain ⟨j, hj⟩ : ∃ j : ℕ, k = lastPlace q + j := ⟨(k - lastPlace q).toNat, by omega⟩
    have := key (m * 2 ^ j)
    convert this using 3
    rw [hj, zpow_add₀ (by norm_num), zpow_natCast]
    push_cast
    ring
  · have hlq : lastPlace q = Int.log 2 q - 52 := by unfold lastPlace at *; omega
    obtain ⟨g1, -⟩ := log_spec h
    have hpk := two_zpow_pos k
    have hd : (m : ℚ) * 2 ^ k ≤ 2 ^ Int.log 2 q := by
      have hm' : (m : ℚ) ≤ 2 ^ (53 : ℤ) := by
        have : m ≤ 2 ^ 53 := (abs_lt.mp hm).2.le
        exact_mod_cast this
      calc (m : ℚ) * 2 ^ k ≤ 2 ^ (53 : ℤ) * 2 ^ k := mul_le_mul_of_nonneg_right hm' hpk.le
        _ = 2 ^ (53 + k) := by rw [zpow_add₀ (by norm_num)]
        _ ≤ _ := zpow_le_zpow_right₀ (by norm_num) (by omega)
    have := key (2 ^ 52)
    have e : (((2 ^ 52 : ℤ) : ℚ)) * 2 ^ lastPlace q = 2 ^ Int.log 2 q := by
      rw [hlq, zpow_sub₀ (by norm_num)]
      push_cast
      field_simp
    rw [e] at this
    refine le_trans this ?_
    rw [abs_of_nonpos (by linarith), abs_of_nonpos (by linarith)]
    linarith

theorem rne_le_of_le {q : ℚ} {n : ℤ} (h : q ≤ n) : rne q ≤ n := by
  have := rne_mono h
  rwa [rne_int] at this

theorem flPos_isDouble {q : ℚ} (h : 0 < q) : IsDouble (flPos q) := by
  have hp := two_zpow_pos (lastPlace q)
  obtain ⟨-, g2⟩ := log_spec h
  have hr0 : 0 ≤ rne (q / 2 ^ lastPlace q) := by
    have := rne_mono (show ((0 : ℤ) : ℚ) ≤ q / 2 ^ lastPlace q by push_cast; exact div_nonneg h.le hp.le)
    rwa [rne_int] at this
  have hr : rne (q / 2 ^ lastPlace q) ≤ 2 ^ 53 := by
    apply rne_le_of_le
    push_cast
    rw [div_le_iff₀ hp]
    have : (2 : ℚ) ^ (Int.log 2 q + 1) ≤ 2 ^ (53 + lastPlace q) :=
      zpow_le_zpow_right₀ (by norm_num) (by unfold lastPlace; omega)
    rw [zpow_add₀ (a := (2 : ℚ)) (by norm_num) 53] at this
    have e : (2 : ℚ) ^ (53 : ℤ) = 2 ^ 53 := by norm_cast
    rw [e] at this
    linarith
  have hl : -1074 ≤ lastPlace q := le_max_right _ _
  rcases eq_or_lt_of_le hr with e | hlt
  · refine ⟨1, 53 + lastPlace q, by norm_num, by omega, ?_⟩
    unfold flPos
    rw [e, zpow_add₀ (by norm_num)]
    push_cast
    ring
  · exact ⟨_, lastPlace q, by rw [abs_of_nonneg hr0]; exact hlt, hl, rfl⟩

/-- **C80** The rounding of the model is IEEE 754's: the result is a binary64 number, and none is
nearer to the exact value. -/
theorem C80_rounding_nearest (q : ℚ) : IsDouble (fl q) ∧ ∀ d, IsDouble d → |fl q - q| ≤ |d - q| := by
  rcases lt_trichotomy q 0 with h | h | h
  · have h' : 0 < -q := by linarith
    have e : fl q = -flPos (-q) := by unfold fl; rw [if_neg (by linarith), if_pos h]
    rw [e]
    constructor
    · obtain ⟨m, k, h1, h2, h3⟩ := flPos_isDouble h'
      exact ⟨-m, k, by rwa [abs_neg], h2, by rw [h3]; push_cast; ring⟩
    · rintro d ⟨m, k, h1, h2, h3⟩
      have := flPos_nearest h' (-d) ⟨-m, k, by rwa [abs_neg], h2, by rw [h3]; push_cast; ring⟩
      rw [show -flPos (-q) - q = -(flPos (-q) - -q) by ring, abs_neg]
      rwa [show d - q = -(-d - -q) by ring, abs_neg]
  · subst h
    constructor
    · exact ⟨0, 0, by norm_num, by norm_num, by simp [fl]⟩
    · intro d _; simp [fl]
  · have e : fl q = flPos q := by unfold fl; rw [if_pos h]
    rw [e]
    exact ⟨flPos_isDouble h, flPos_nearest h⟩

/-! ### The conversions -/

theorem fl_neg_int (n : ℤ) (h : n < 0) : fl n = -fl ((-n : ℤ) : ℚ) := by
  rw [← fl_neg]; push_cast; rw [neg_neg]

theorem love2ada_neg (n : ℤ) : love2ada (-n) = -love2ada n := by
  unfold love2ada
  push_cast
  rw [fl_neg, neg_div, fl_neg]

/-- **C80** Whole ADA amounts up to 2^39 ADA (twelve times the largest possible supply of
45 billion) are converted exactly in both directions. -/
theorem C80_whole_ada (k : ℤ) (h : |k| < 2 ^ 39) :
    love2ada (1000000 * k) = k ∧ ada2love (.fin k) = .ok (1000000 * k) := by
  have pos : ∀ n : ℕ, n < 2 ^ 39 → fl ((n : ℚ) * 1000000) = n * 1000000 := by
    intro n hn
    have := fl_exact (n * 15625) 6 (by omega) (by norm_num)
    have e : (((n * 15625 : ℕ) : ℚ)) * 2 ^ (6 : ℤ) = n * 1000000 := by push_cast; norm_num; ring
    rw [e] at this
    exact this
  have key : ∀ j : ℤ, |j| < 2 ^ 39 → fl ((j : ℚ) * 1000000) = j * 1000000 := by
    intro j hj
    rcases le_total 0 j with h0 | h0
    · obtain ⟨n, rfl⟩ := Int.eq_ofNat_of_zero_le h0
      have := pos n (by rw [abs_of_nonneg h0] at hj; exact_mod_cast hj)
      exact_mod_cast this
    · obtain ⟨n, hn⟩ := Int.eq_ofNat_of_zero_le (show 0 ≤ -j by omega)
      have hj' : j = -(n : ℤ) := by omega
      subst hj'
      have := pos n (by rw [abs_of_nonpos h0] at hj; simpa using hj)
      push_cast
      rw [neg_mul, fl_neg, this]
  have one : ∀ j : ℤ, |j| < 2 ^ 39 → fl (j : ℚ) = j := by
    intro j hj
    rcases le_total 0 j with h0 | h0
    · obtain ⟨n, rfl⟩ := Int.eq_ofNat_of_zero_le h0
      have := fl_nat n (by rw [abs_of_nonneg h0] at hj; norm_num at hj ⊢; omega)
      exact_mod_cast this
    · obtain ⟨n, hn⟩ := Int.eq_ofNat_of_zero_le (show 0 ≤ -j by omega)
      have hj' : j = -(n : ℤ) := by omega
      subst hj'
      have := fl_nat n (by rw [abs_of_nonpos h0] at hj; norm_num at hj ⊢; omega)
      push_cast
      rw [fl_neg, this]
  constructor
  · unfold love2ada
    push_cast
    rw [mul_comm (1000000 : ℚ), key k h]
    rw [mul_div_assoc, div_self (by norm_num), mul_one, one k h]
  · unfold ada2love truncI64
    dsimp only
    rw [mul_comm (1000000 : ℚ), key k h]
    have e : (k : ℚ) * 1000000 = ((1000000 * k : ℤ) : ℚ) := by push_cast; ring
    rw [e]
    simp only [Int.floor_intCast, Int.ceil_intCast, ite_self]
    rw [if_pos]
    rw [abs_lt] at h
    omega

theorem truncI64_range {q : ℚ} {a b : ℤ} (h0 : 0 ≤ q) (h1 : (a : ℚ) ≤ q) (h2 : q < b + 1) (hb : b < 2 ^ 63) :
    ∃ n, truncI64 q = .ok n ∧ a ≤ n ∧ n ≤ b := by
  unfold truncI64
  rw [if_pos h0]
  have c1 : a ≤ ⌊q⌋ := Int.le_floor.mpr h1
  have c2 : ⌊q⌋ ≤ b := by
    have : ⌊q⌋ < b + 1 := Int.floor_lt.mpr (by push_cast; exact h2)
    omega
  have c3 : 0 ≤ ⌊q⌋ := Int.floor_nonneg.mpr h0
  exact ⟨⌊q⌋, by rw [if_pos ⟨by omega, by omega⟩], c1, c2⟩

theorem product_err (x : ℕ) (h0 : 0 < x) (h : x ≤ 2 ^ 53) :
    |1000000 * love2ada x - x| ≤ x / 2 ^ 53 ∧ 0 ≤ love2ada x := by
  have e : love2ada x = fl ((x : ℚ) / 1000000) := by
    unfold love2ada
    rw [show ((x : ℤ) : ℚ) = (x : ℚ) by push_cast; rfl, fl_nat x h]
  rw [e]
  have hx : (1 : ℚ) ≤ x := by exact_mod_cast h0
  have hb : (2 : ℚ) ^ (-1000 : ℤ) ≤ (x : ℚ) / 1000000 := by
    rw [le_div_iff₀ (by norm_num)]
    refine le_trans ?_ hx
    have : (2 : ℚ) ^ (-1000 : ℤ) ≤ 2 ^ (-20 : ℤ) := zpow_le_zpow_right₀ (by norm_num) (by norm_num)
    calc _ ≤ (2 : ℚ) ^ (-20 : ℤ) * 1000000 := mul_le_mul_of_nonneg_right this (by norm_num)
      _ ≤ 1 := by norm_num
  have h1 := fl_rel hb
  constructor
  · have e2 : 1000000 * fl ((x : ℚ) / 1000000) - x = 1000000 * (fl ((x : ℚ) / 1000000) - x / 1000000) := by ring
    rw [e2, abs_mul, abs_of_pos (by norm_num)]
    calc _ ≤ 1000000 * ((x : ℚ) / 1000000 / 2 ^ 53) := mul_le_mul_of_nonneg_left h1 (by norm_num)
      _ = _ := by ring
  · unfold fl
    rw [if_pos (by positivity)]
    exact flPos_nonneg (by positivity)

/-- **C80** (what holds) Below 2^52 lovelace (4.5 billion ADA) a round trip through ADA never
gains, and loses at most one lovelace. -/
theorem C80_roundtrip_partial (x : ℕ) (h : x < 2 ^ 52) :
    ada2love (.fin (love2ada x)) = .ok x ∨ (0 < x ∧ ada2love (.fin (love2ada x)) = .ok (x - 1)) := by
  rcases Nat.eq_zero_or_pos x with rfl | h0
  · left
    simp [love2ada, fl, ada2love, truncI64]
  · obtain ⟨h1, h2⟩ := product_err x h0 (by omega)
    have hx : (x : ℚ) / 2 ^ 53 ≤ 1 / 2 := by
      rw [div_le_iff₀ (by norm_num)]
      have : (x : ℚ) ≤ 2 ^ 52 := by exact_mod_cast h.le
      linarith
    rw [abs_le] at h1
    have up := fl_mono (show 1000000 * love2ada x ≤ ((2 * x + 1 : ℕ) : ℚ) * 2 ^ (-1 : ℤ) by
      push_cast; rw [zpow_neg_one]; linarith)
    rw [fl_exact (2 * x + 1) (-1) (by omega) (by norm_num)] at up
    have lo := fl_mono (show (((x - 1 : ℕ)) : ℚ) ≤ 1000000 * love2ada x by
      rw [Nat.cast_sub h0]; push_cast; linarith)
    rw [fl_nat (x - 1) (by omega)] at lo
    obtain ⟨n, e, g1, g2⟩ := truncI64_range (q := fl (1000000 * love2ada x)) (a := (x : ℤ) - 1) (b := x)
      (by refine le_trans ?_ lo; positivity)
      (by rw [Nat.cast_sub h0] at lo; push_cast at lo ⊢; exact lo)
      (by push_cast at up ⊢; rw [zpow_neg_one] at up; linarith) (by omega)
    unfold ada2love
    dsimp only
    rw [e]
    rcases (show n = x ∨ n = x - 1 by omega) with rfl | rfl
    · left; rfl
    · right; exact ⟨h0, rfl⟩

/-- **C80** (what holds, up to 2^53) The round trip is never off by more than one lovelace. -/
theorem C80_off_by_one_partial (x : ℕ) (h : x < 2 ^ 53) :
    ∃ n, ada2love (.fin (love2ada x)) = .ok n ∧ |n - x| ≤ 1 := by
  rcases Nat.eq_zero_or_pos x with rfl | h0
  · exact ⟨0, by simp [love2ada, fl, ada2love, truncI64], by simp⟩
  · obtain ⟨h1, h2⟩ := product_err x h0 (by omega)
    have hx : (x : ℚ) / 2 ^ 53 ≤ 1 := by
      rw [div_le_iff₀ (by norm_num)]
      have : (x : ℚ) ≤ 2 ^ 53 := by exact_mod_cast h.le
      linarith
    rw [abs_le] at h1
    have up := fl_mono (show 1000000 * love2ada x ≤ ((x + 1 : ℕ) : ℚ) by push_cast; linarith)
    rw [fl_nat (x + 1) (by omega)] at up
    have lo := fl_mono (show (((x - 1 : ℕ)) : ℚ) ≤ 1000000 * love2ada x by
      rw [Nat.cast_sub h0]; push_cast; linarith)
    rw [fl_nat (x - 1) (by omega)] at lo
    obtain ⟨n, e, g1, g2⟩ := truncI64_range (q := fl (1000000 * love2ada x)) (a := (x : ℤ) - 1) (b := x + 1)
      (by refine le_trans ?_ lo; positivity)
      (by rw [Nat.cast_sub h0] at lo; push_cast at lo ⊢; exact lo)
      (by push_cast at up ⊢; linarith) (by omega)
    refine ⟨n, e, ?_⟩
    rw [abs_le]
    omega

theorem truncI64_ok {q : ℚ} {n : ℤ} : truncI64 q = .ok n ↔
    n = (if 0 ≤ q then ⌊q⌋ else ⌈q⌉) ∧ -2 ^ 63 ≤ n ∧ n < 2 ^ 63 := by
  unfold truncI64
  dsimp only
  generalize (if 0 ≤ q then ⌊q⌋ else ⌈q⌉) = t
  constructor
  · intro h
    by_cases hr : -2 ^ 63 ≤ t ∧ t < 2 ^ 63
    · rw [if_pos hr] at h
      injection h with h
      subst h
      exact ⟨rfl, hr⟩
    · rw [if_neg hr] at h
      cases h
  · rintro ⟨rfl, hr⟩
    rw [if_pos hr]

/-- Relative error, in the form in which three of them compose. -/
theorem fl_rel' {q : ℚ} (h : (2 : ℚ) ^ (-1000 : ℤ) ≤ q) : q * (1 - 1 / 2 ^ 53) ≤ fl q ∧ fl q ≤ q * (1 + 1 / 2 ^ 53) := by
  have := fl_rel h
  rw [abs_le] at this
  constructor <;> linarith

/-- **C80** (what holds for every amount up to 2^62 lovelace, a hundred times the supply) The
round trip is defined and off by at most one lovelace and one part in 2^51. -/
theorem C80_error_bound_partial (x : ℕ) (h : x ≤ 2 ^ 62) :
    ∃ n : ℤ, ada2love (.fin (love2ada x)) = .ok n ∧ |(n : ℚ) - x| ≤ 1 + x / 2 ^ 51 := by
  rcases Nat.eq_zero_or_pos x with rfl | h0
  · exact ⟨0, by simp [love2ada, fl, ada2love, truncI64], by simp⟩
  have hx : (1 : ℚ) ≤ x := by exact_mod_cast h0
  have hX : (x : ℚ) ≤ 2 ^ 62 := by exact_mod_cast h
  have small : (2 : ℚ) ^ (-1000 : ℤ) ≤ 2 ^ (-30 : ℤ) := zpow_le_zpow_right₀ (by norm_num) (by norm_num)
  have s30 : (2 : ℚ) ^ (-30 : ℤ) ≤ 1 / 1000000000 := by norm_num
  obtain ⟨a1, a2⟩ := fl_rel' (q := (x : ℚ)) (le_trans (le_trans small s30) (by linarith))
  have b0 : (1 : ℚ) / 2 ≤ fl x := by
    refine le_trans ?_ a1
    calc (1 : ℚ) / 2 ≤ 1 * (1 - 1 / 2 ^ 53) := by norm_num
      _ ≤ _ := mul_le_mul_of_nonneg_right hx (by norm_num)
  obtain ⟨b1, b2⟩ := fl_rel' (q := fl x / 1000000) (by
    refine le_trans (le_trans small s30) ?_
    rw [le_div_iff₀ (by norm_num)]; linarith)
  have e : love2ada x = fl (fl (x : ℚ) / 1000000) := by
    unfold love2ada
    rw [show ((x : ℤ) : ℚ) = (x : ℚ) by push_cast; rfl]
  rw [← e] at b1 b2
  have c0 : (1 : ℚ) / 4 ≤ 1000000 * love2ada x := by
    have : fl (x : ℚ) * (1 - 1 / 2 ^ 53) ≤ 1000000 * love2ada x := by linarith
    refine le_trans ?_ this
    calc (1 : ℚ) / 4 ≤ 1 / 2 * (1 - 1 / 2 ^ 53) := by norm_num
      _ ≤ _ := mul_le_mul_of_nonneg_right b0 (by norm_num)
  obtain ⟨c1, c2⟩ := fl_rel' (q := 1000000 * love2ada x) (le_trans (le_trans small s30) (by linarith))
  have ea : ada2love (.fin (love2ada x)) = truncI64 (fl (1000000 * love2ada x)) := rfl
  rw [ea]
  generalize fl (1000000 * love2ada x) = q at *
  have lo : (x : ℚ) * (1 - 1 / 2 ^ 51) ≤ q := by linarith
  have hi : q ≤ (x : ℚ) * (1 + 1 / 2 ^ 51) := by linarith
  have q0 : 0 ≤ q := le_trans (mul_nonneg (by linarith) (by norm_num)) lo
  have f1 := Int.floor_le q
  have f2 := Int.lt_floor_add_one q
  have f0 := Int.floor_nonneg.mpr q0
  refine ⟨⌊q⌋, ?_, ?_⟩
  · rw [truncI64_ok, if_pos q0]
    refine ⟨rfl, by omega, ?_⟩
    rw [Int.floor_lt]
    push_cast
    calc q ≤ (x : ℚ) * (1 + 1 / 2 ^ 51) := hi
      _ ≤ 2 ^ 62 * (1 + 1 / 2 ^ 51) := mul_le_mul_of_nonneg_right hX (by norm_num)
      _ < 2 ^ 63 := by norm_num
  · rw [abs_le]; constructor <;> linarith

/-- **C80** Negative amounts mirror positive ones. -/
theorem C80_negative (x : ℤ) (n : ℤ) (h : ada2love (.fin (love2ada x)) = .ok n) (hr : -2 ^ 63 < n) :
    ada2love (.fin (love2ada (-x))) = .ok (-n) := by
  rw [love2ada_neg]
  unfold ada2love at *
  dsimp only at *
  rw [mul_neg, fl_neg]
  generalize fl (1000000 * love2ada x) = q at *
  rw [truncI64_ok] at h ⊢
  obtain ⟨h1, h2, h3⟩ := h
  refine ⟨?_, by omega, by omega⟩
  rw [h1]
  rcases lt_trichotomy q 0 with hq | hq | hq
  · rw [if_neg (not_le.mpr hq), if_pos (by linarith), Int.floor_neg]
  · subst hq; simp
  · rw [if_pos hq.le, if_neg (by linarith), Int.ceil_neg]

/-- **C80** More ADA is never fewer lovelace. -/
theorem C80_monotone (a b : ℚ) (m n : ℤ) (h : a ≤ b) (ha : ada2love (.fin a) = .ok m) (hb : ada2love (.fin b) = .ok n) :
    m ≤ n := by
  have h1 : fl (1000000 * a) ≤ fl (1000000 * b) := fl_mono (by linarith)
  unfold ada2love at ha hb
  dsimp only at ha hb
  generalize fl (1000000 * a) = p at *
  generalize fl (1000000 * b) = q at *
  rw [truncI64_ok] at ha hb
  rw [ha.1, hb.1]
  split
  · rw [if_pos (by linarith)]; exact Int.floor_mono h1
  · rename_i hp
    split
    · rename_i hq
      have : ⌈p⌉ ≤ 0 := Int.ceil_le.mpr (by push_cast; linarith)
      have := Int.floor_nonneg.mpr hq
      omega
    · exact Int.ceil_mono h1

/-- **C80** The conversion is defined exactly for finite values whose rounded product lies
strictly between -2^63 - 1 and 2^63. -/
theorem C80_defined (a : ℚ) :
    (ada2love (.fin a) ≠ .ub ↔ -2 ^ 63 - 1 < fl (1000000 * a) ∧ fl (1000000 * a) < 2 ^ 63) ∧
    ada2love .inf = .ub ∧ ada2love .nan = .ub := by
  refine ⟨?_, rfl, rfl⟩
  unfold ada2love truncI64
  dsimp only
  generalize fl (1000000 * a) = q
  by_cases hq : 0 ≤ q
  · rw [if_pos hq]
    have h0 := Int.floor_nonneg.mpr hq
    have h1 : ⌊q⌋ < 2 ^ 63 ↔ q < 2 ^ 63 := by
      rw [Int.floor_lt]; norm_num
    constructor
    · intro h
      refine ⟨by linarith, h1.mp ?_⟩
      by_contra hc
      exact h (if_neg (fun hh => hc hh.2))
    · rintro ⟨-, h⟩
      rw [if_pos ⟨by omega, h1.mpr h⟩]; simp
  · rw [if_neg hq]
    have h0 : ⌈q⌉ ≤ 0 := Int.ceil_le.mpr (by push_cast; linarith)
    have h1 : -2 ^ 63 ≤ ⌈q⌉ ↔ -2 ^ 63 - 1 < q := by
      rw [show (-2 ^ 63 ≤ ⌈q⌉) ↔ (-2 ^ 63 - 1 < ⌈q⌉) by omega, Int.lt_ceil]; norm_num
    constructor
    · intro h
      refine ⟨h1.mp ?_, by linarith⟩
      by_contra hc
      exact h (if_neg (fun hh => hc hh.1))
    · rintro ⟨h, -⟩
      rw [if_pos ⟨h1.mpr h, by omega⟩]; simp

/-- **C80** is false of the code: 249 lovelace come back as 248. -/
theorem C80_loses_a_lovelace : ada2love (.fin (love2ada 249)) = .ok 248 := by
  have l1 : lastPlace ((249 : ℚ) / 1000000) = -64 := by
    unfold lastPlace
    rw [log_eq (k := -12) (by norm_num) (by norm_num)]
    norm_num
  have f1 : ⌊(249 : ℚ) / 1000000 / 2 ^ (-64 : ℤ)⌋ = 4593239274353678 := by
    rw [Int.floor_eq_iff]; constructor <;> norm_num
  have r1 : rne ((249 : ℚ) / 1000000 / 2 ^ (-64 : ℤ)) = 4593239274353678 := by
    unfold rne; rw [f1]; norm_num
  have e1 : love2ada 249 = 4593239274353678 * 2 ^ (-64 : ℤ) := by
    have h249 : fl ((249 : ℤ) : ℚ) = 249 := by
      have := fl_nat 249 (by norm_num)
      exact_mod_cast this
    unfold love2ada
    rw [h249]
    unfold fl flPos
    rw [if_pos (by norm_num), l1, r1]
    norm_num
  have l2 : lastPlace (1000000 * (4593239274353678 * 2 ^ (-64 : ℤ)) : ℚ) = -45 := by
    unfold lastPlace
    rw [log_eq (k := 7) (by norm_num) (by norm_num)]
    norm_num
  have f2 : ⌊(1000000 * (4593239274353678 * 2 ^ (-64 : ℤ)) : ℚ) / 2 ^ (-45 : ℤ)⌋ = 8760908650119167 := by
    rw [Int.floor_eq_iff]; constructor <;> norm_num
  have r2 : rne ((1000000 * (4593239274353678 * 2 ^ (-64 : ℤ)) : ℚ) / 2 ^ (-45 : ℤ)) = 8760908650119167 := by
    unfold rne; rw [f2]; norm_num
  have e2 : fl (1000000 * (4593239274353678 * 2 ^ (-64 : ℤ)) : ℚ) = 8760908650119167 * 2 ^ (-45 : ℤ) := by
    unfold fl flPos
    rw [if_pos (by norm_num), l2, r2]
    norm_num
  unfold ada2love
  dsimp only
  rw [e1, e2]
  unfold truncI64
  have f3 : ⌊(8760908650119167 * 2 ^ (-45 : ℤ) : ℚ)⌋ = 248 := by
    rw [Int.floor_eq_iff]; constructor <;> norm_num
  rw [if_pos (by norm_num), f3]
  norm_num

end Cardano.Ada
