import Verif.Model.Util
import Verif.Spec.Util
import Mathlib.Data.Nat.Fib.Basic
import Mathlib.Data.Int.GCD
import Mathlib.Tactic.Ring
import Mathlib.Tactic.Linarith
import Mathlib.Tactic.LinearCombination
import Mathlib.Tactic.NormNum
import Mathlib.Tactic.Positivity

namespace Cardano.Util

theorem i64_ok {z : Int} (h1 : 0 ≤ z) (h2 : z < 2 ^ 63) : i64 z = .ok z := by
  unfold i64; rw [if_pos]; constructor
  · have : (-(2 ^ 63) : Int) ≤ 0 := by norm_num
    omega
  · exact h2

/-- Loop invariant after at least one turn: the convergents `h`, `k` and the Euclidean
remainders `d > n` reproduce the original pair `D / N`. -/
structure RaInv (D N md : Int) (s : RaState) : Prop where
  hD : s.h1 * s.d + s.h0 * s.n = D
  hN : s.k1 * s.d + s.k0 * s.n = N
  n0 : 0 ≤ s.n
  nd : s.n < s.d
  h0p : 0 ≤ s.h0
  h1p : 0 ≤ s.h1
  k0p : 0 ≤ s.k0
  k1p : 1 ≤ s.k1
  k0l : s.k0 ≤ md
  k1l : s.k1 < md

/-- One turn of the loop with `n ≠ 0` and no truncation. -/
theorem ra_step {D N md : Int} {s : RaState} (hi : RaInv D N md s) (hn : s.n ≠ 0) :
    let a := s.d / s.n
    1 ≤ a ∧ 0 ≤ s.k1 * a ∧ s.k1 * a + s.k0 ≤ N ∧ 0 ≤ a * s.h1 + s.h0 ∧ a * s.h1 + s.h0 ≤ D ∧
    s.d.tdiv s.n = a ∧ s.d.tmod s.n = s.d % s.n ∧ a ≤ N := by
  intro a
  obtain ⟨hD, hN, n0, nd, h0p, h1p, k0p, k1p, k0l, k1l⟩ := hi
  have hnp : 0 < s.n := lt_of_le_of_ne n0 (Ne.symm hn)
  have ha1 : 1 ≤ a := by
    apply Int.le_ediv_of_mul_le hnp; linarith
  have han : a * s.n ≤ s.d := Int.ediv_mul_le s.d hn
  have hk : s.k1 * a + s.k0 ≤ N := by
    have h1 : s.n * (s.k1 * a + s.k0) ≤ N := by
      have : s.k1 * (a * s.n) ≤ s.k1 * s.d := mul_le_mul_of_nonneg_left han (by linarith)
      nlinarith
    have h2 : 0 ≤ s.k1 * a + s.k0 := by positivity
    nlinarith
  have hh : a * s.h1 + s.h0 ≤ D := by
    have h1 : s.n * (a * s.h1 + s.h0) ≤ D := by
      have : s.h1 * (a * s.n) ≤ s.h1 * s.d := mul_le_mul_of_nonneg_left han h1p
      nlinarith
    have h2 : 0 ≤ a * s.h1 + s.h0 := by positivity
    nlinarith
  refine ⟨ha1, by positivity, hk, by positivity, hh, ?_, ?_, ?_⟩
  · exact Int.tdiv_eq_ediv_of_nonneg (by linarith)
  · exact Int.tmod_eq_emod_of_nonneg (by linarith)
  · nlinarith

theorem ra_step_inv {D N md : Int} {s : RaState} (hi : RaInv D N md s) (hn : s.n ≠ 0)
    (hq : s.k1 * (s.d / s.n) + s.k0 < md) :
    RaInv D N md { d := s.n, n := s.d % s.n, h0 := s.h1, h1 := s.d / s.n * s.h1 + s.h0,
                   k0 := s.k1, k1 := s.d / s.n * s.k1 + s.k0 } := by
  obtain ⟨ha1, _, hk, hh0, hh, -, -, -⟩ := ra_step hi hn
  obtain ⟨hD, hN, n0, nd, h0p, h1p, k0p, k1p, k0l, k1l⟩ := hi
  have hnp : 0 < s.n := lt_of_le_of_ne n0 (Ne.symm hn)
  have hdm : s.d = s.n * (s.d / s.n) + s.d % s.n := (Int.mul_ediv_add_emod s.d s.n).symm
  refine ⟨?_, ?_, Int.emod_nonneg _ hn, Int.emod_lt_of_pos _ hnp, h1p, hh0, by linarith, ?_, by linarith, ?_⟩
  · simp only
    rw [← hD]
    linear_combination (-s.h1) * hdm
  · simp only
    rw [← hN]
    linear_combination (-s.k1) * hdm
  · simp only
    nlinarith
  · simp only
    linarith [mul_comm s.k1 (s.d / s.n)]

theorem ra_bounds {D N md : Int} (hNb : N ≤ 2 ^ 61) (hDb : D < 2 ^ 63) : ∀ (rem : Nat) (s : RaState),
    RaInv D N md s → ∃ s', raLoop md rem false s = .ok s' ∧ 1 ≤ s'.k1 ∧ s'.k1 ≤ md := by
  intro rem
  induction rem with
  | zero => intro s hi; exact ⟨s, rfl, hi.k1p, by linarith [hi.k1l]⟩
  | succ rem ih =>
    intro s hi
    by_cases hn : s.n = 0
    · refine ⟨s, ?_, hi.k1p, by linarith [hi.k1l]⟩
      simp [raLoop, hn]
    · obtain ⟨ha1, hka, hk, hh0, hh, ht, hm, ha⟩ := ra_step hi hn
      have b61 : (2 : Int) ^ 61 < 2 ^ 63 := by norm_num
      have hk0 := hi.k0p
      have e1 : i64 (s.d.tdiv s.n) = .ok (s.d / s.n) := by
        rw [ht]; exact i64_ok (by linarith) (by linarith)
      have e2 : i64 (s.k1 * (s.d / s.n)) = .ok (s.k1 * (s.d / s.n)) := i64_ok hka (by linarith)
      have e3 : i64 (s.k1 * (s.d / s.n) + s.k0) = .ok (s.k1 * (s.d / s.n) + s.k0) :=
        i64_ok (by linarith) (by linarith)
      by_cases hq : s.k1 * (s.d / s.n) + s.k0 < md
      · have e4 : i64 (s.d / s.n * s.h1 + s.h0) = .ok (s.d / s.n * s.h1 + s.h0) := i64_ok hh0 (by linarith)
        have e5 : i64 (s.d / s.n * s.k1 + s.k0) = .ok (s.d / s.n * s.k1 + s.k0) := by
          rw [mul_comm]; exact e3
        obtain ⟨s', hs', h1, h2⟩ := ih _ (ra_step_inv hi hn hq)
        refine ⟨s', ?_, h1, h2⟩
        rw [← hs']
        rw [raLoop]
        have hne : s.d / s.n ≠ 0 := by omega
        simp only [ne_eq, hn, not_false_eq_true, if_true, e1, Out.ok_bind, e2, e3, e4, e5, hne, and_false, if_false, hm]
        rw [if_neg (by omega)]
      · have hk1 : s.k1 ≠ 0 := by have := hi.k1p; omega
        have hx0 : 0 ≤ md - s.k0 := by linarith [hi.k0l]
        have hxt : (md - s.k0).tdiv s.k1 = (md - s.k0) / s.k1 := Int.tdiv_eq_ediv_of_nonneg hx0
        have hxn : 0 ≤ (md - s.k0) / s.k1 := Int.ediv_nonneg hx0 (by linarith [hi.k1p])
        have hxk : (md - s.k0) / s.k1 * s.k1 ≤ md - s.k0 := Int.ediv_mul_le _ hk1
        have hxa : (md - s.k0) / s.k1 ≤ s.d / s.n := by
          by_contra hc
          have hk1p := hi.k1p
          have : (s.d / s.n + 1) * s.k1 ≤ (md - s.k0) / s.k1 * s.k1 :=
            mul_le_mul_of_nonneg_right (by omega) (by linarith)
          nlinarith
        have e4 : i64 ((md - s.k0) / s.k1 * 2) = .ok ((md - s.k0) / s.k1 * 2) := by
          apply i64_ok (by positivity)
          have : (2:Int) ^ 62 < 2 ^ 63 := by norm_num
          have : (2:Int) ^ 62 = 2 ^ 61 * 2 := by norm_num
          linarith
        rw [raLoop]
        have hne : s.d / s.n ≠ 0 := by omega
        simp only [ne_eq, hn, not_false_eq_true, if_true, e1, Out.ok_bind, e2, e3, e4, hne, and_false, if_false, hm, hk1, hxt]
        rw [if_pos (by omega)]
        by_cases hy : (md - s.k0) / s.k1 * 2 ≥ s.d / s.n ∨ s.k1 ≥ md
        · rw [if_pos hy]
          have hh1 : (md - s.k0) / s.k1 * s.h1 ≤ s.d / s.n * s.h1 := mul_le_mul_of_nonneg_right hxa hi.h1p
          have e5 : i64 ((md - s.k0) / s.k1 * s.h1 + s.h0) = .ok ((md - s.k0) / s.k1 * s.h1 + s.h0) := by
            have h1p := hi.h1p
            have h0p := hi.h0p
            exact i64_ok (by positivity) (by linarith)
          have hk1' : (md - s.k0) / s.k1 * s.k1 ≤ s.d / s.n * s.k1 := mul_le_mul_of_nonneg_right hxa (by linarith [hi.k1p])
          have e6 : i64 ((md - s.k0) / s.k1 * s.k1 + s.k0) = .ok ((md - s.k0) / s.k1 * s.k1 + s.k0) := by
            have k1p := hi.k1p
            exact i64_ok (by positivity) (by linarith [mul_comm s.k1 (s.d / s.n)])
          simp only [e5, e6, Out.ok_bind, Out.pure_eq]
          refine ⟨_, rfl, ?_, ?_⟩
          · simp only
            by_cases hz : (md - s.k0) / s.k1 = 0
            · -- then k0 must already be positive: otherwise x ≥ md / k1 ≥ 1
              exfalso
              rcases hy with h | h
              · rw [hz] at h; omega
              · have := hi.k1l; omega
            · have k1p := hi.k1p
              have : 1 ≤ (md - s.k0) / s.k1 := by omega
              nlinarith
          · simp only; linarith
        · rw [if_neg hy]
          exact ⟨_, rfl, hi.k1p, by simp only; linarith [hi.k1l]⟩

theorem divisions_zero (a : Nat) : divisions a 0 = 0 := by rw [divisions]; simp
theorem divisions_pos (a b : Nat) (h : b ≠ 0) : divisions a b = divisions b (a % b) + 1 := by
  rw [divisions, dif_neg h]

/-- Below the bound the loop gives the fraction itself exactly when Euclid's algorithm ends in
the turns allowed. -/
theorem ra_exact_iff {D N md : Int} (hN : N < md) (hNb : N < 2 ^ 63) (hDb : D < 2 ^ 63) : ∀ (rem : Nat) (s : RaState),
    RaInv D N md s → Int.gcd s.d s.n = 1 →
    ∃ s', raLoop md rem false s = .ok s' ∧ 0 ≤ s'.h1 ∧ ((s'.h1 = D ∧ s'.k1 = N) ↔ divisions s.d.toNat s.n.toNat ≤ rem) ∧
      (¬ divisions s.d.toNat s.n.toNat ≤ rem → s'.k1 < N) := by
  intro rem
  induction rem with
  | zero =>
    intro s hi hg
    refine ⟨s, rfl, hi.h1p, ?_⟩
    obtain ⟨hD, hN, n0, nd, h0p, h1p, k0p, k1p, k0l, k1l⟩ := hi
    by_cases hn : s.n = 0
    · have hd : s.d = 1 := by
        rw [hn, Int.gcd_zero_right] at hg
        omega
      have e0 : divisions s.d.toNat s.n.toNat = 0 := by rw [hn]; exact divisions_zero _
      rw [e0]
      refine ⟨⟨fun _ => le_refl _, fun _ => ⟨?_, ?_⟩⟩, fun h => absurd (le_refl 0) h⟩
      · rw [hn, hd] at hD; linarith
      · rw [hn, hd] at hN; linarith
    · have hlt : s.k1 < N := by
        have h2 : 2 ≤ s.d := by omega
        nlinarith
      have hne : ¬ divisions s.d.toNat s.n.toNat ≤ 0 := by
        rw [divisions_pos _ _ (by omega)]; omega
      refine ⟨⟨?_, fun h => absurd h hne⟩, fun _ => hlt⟩
      rintro ⟨_, h⟩
      omega
  | succ rem ih =>
    intro s hi hg
    by_cases hn : s.n = 0
    · have hd : s.d = 1 := by
        rw [hn, Int.gcd_zero_right] at hg
        have := hi.nd; omega
      have e0 : divisions s.d.toNat s.n.toNat = 0 := by rw [hn]; exact divisions_zero _
      rw [e0]
      refine ⟨s, ?_, hi.h1p, ⟨fun _ => Nat.zero_le _, fun _ => ⟨?_, ?_⟩⟩, fun h => absurd (Nat.zero_le _) h⟩
      · simp [raLoop, hn]
      · have := hi.hD; rw [hn, hd] at this; linarith
      · have := hi.hN; rw [hn, hd] at this; linarith
    · obtain ⟨ha1, hka, hk, hh0, hh, ht, hm, ha⟩ := ra_step hi hn
      have hk0 := hi.k0p
      have e1 : i64 (s.d.tdiv s.n) = .ok (s.d / s.n) := by
        rw [ht]; exact i64_ok (by linarith) (by linarith)
      have e2 : i64 (s.k1 * (s.d / s.n)) = .ok (s.k1 * (s.d / s.n)) := i64_ok hka (by linarith)
      have e3 : i64 (s.k1 * (s.d / s.n) + s.k0) = .ok (s.k1 * (s.d / s.n) + s.k0) :=
        i64_ok (by linarith) (by linarith)
      have hq : s.k1 * (s.d / s.n) + s.k0 < md := by linarith
      have e4 : i64 (s.d / s.n * s.h1 + s.h0) = .ok (s.d / s.n * s.h1 + s.h0) := i64_ok hh0 (by linarith)
      have e5 : i64 (s.d / s.n * s.k1 + s.k0) = .ok (s.d / s.n * s.k1 + s.k0) := by
        rw [mul_comm]; exact e3
      have hg' : Int.gcd s.n (s.d % s.n) = 1 := by
        rw [Int.gcd_comm, Int.gcd_emod, hg]
      obtain ⟨s', hs', h0, h1, h2⟩ := ih _ (ra_step_inv hi hn hq) hg'
      have hdiv : divisions s.d.toNat s.n.toNat = divisions s.n.toNat (s.d % s.n).toNat + 1 := by
        rw [divisions_pos _ _ (by have := hi.n0; omega), Int.toNat_emod (by have := hi.nd; have := hi.n0; omega) hi.n0]
      simp only at h1 h2
      rw [hdiv]
      refine ⟨s', ?_, h0, ?_, ?_⟩
      · rw [← hs']
        rw [raLoop]
        have hne : s.d / s.n ≠ 0 := by omega
        simp only [ne_eq, hn, not_false_eq_true, if_true, e1, Out.ok_bind, e2, e3, e4, e5, hne, and_false, if_false, hm]
        rw [if_neg (by omega)]
      · rw [h1]; omega
      · intro h; exact h2 (by omega)

/-- Lamé: `k` divisions need a first number of at least the `(k+1)`st Fibonacci number. -/
theorem divisions_fib : ∀ (k a b : Nat), b < a → k ≤ divisions a b → Nat.fib (k + 1) ≤ b ∧ Nat.fib (k + 2) ≤ a ∨ k = 0 := by
  intro k
  induction k with
  | zero => intros; exact .inr rfl
  | succ k ih =>
    intro a b hab hk
    left
    have hb : b ≠ 0 := by
      intro h
      rw [h, divisions_zero] at hk
      omega
    rw [divisions_pos a b hb] at hk
    have hmod : a % b < b := Nat.mod_lt _ (by omega)
    have ha : b + a % b ≤ a := by
      have := Nat.div_add_mod a b
      have h1 : 1 ≤ a / b := Nat.div_pos (by omega) (by omega)
      nlinarith
    rcases ih b (a % b) hmod (by omega) with ⟨h1, h2⟩ | h0
    · refine ⟨h2, ?_⟩
      rw [show k + 1 + 2 = (k + 1) + 2 by rfl, Nat.fib_add_two]
      have : Nat.fib (k + 1 + 1) = Nat.fib (k + 2) := rfl
      omega
    · subst h0
      refine ⟨?_, ?_⟩
      · show Nat.fib 2 ≤ b
        rw [show Nat.fib 2 = 1 by rfl]; omega
      · show Nat.fib 3 ≤ a
        rw [show Nat.fib 3 = 2 by rfl]; omega

/-- The first turn always stores the integer part and denominator 1. -/
theorem ra_first (D N md : Int) (rem : Nat) (hmd : 2 ≤ md) (hN : 0 < N) (hD : 0 ≤ D) (hDb : D < 2 ^ 63) :
    raLoop md (rem + 1) true { d := D, n := N, h0 := 0, h1 := 1, k0 := 1, k1 := 0 } =
      raLoop md rem false { d := N, n := D % N, h0 := 1, h1 := D / N, k0 := 0, k1 := 1 } ∧
    RaInv D N md { d := N, n := D % N, h0 := 1, h1 := D / N, k0 := 0, k1 := 1 } := by
  constructor
  · have hn : N ≠ 0 := by omega
    have hdiv : D / N ≤ D := Int.ediv_le_self N hD
    have hdp : 0 ≤ D / N := Int.ediv_nonneg hD hN.le
    have e1 : i64 (D.tdiv N) = .ok (D / N) := by
      rw [Int.tdiv_eq_ediv_of_nonneg hD]; exact i64_ok hdp (by linarith)
    have e2 : i64 0 = .ok 0 := i64_ok (by omega) (by norm_num)
    have e3 : i64 1 = .ok 1 := i64_ok (by omega) (by norm_num)
    have e4 : i64 (D / N) = .ok (D / N) := i64_ok hdp (by linarith)
    rw [raLoop]
    simp only [ne_eq, hn, not_false_eq_true, if_true, e1, Out.ok_bind, Bool.not_true, Bool.false_eq_true, false_and, if_false,
      zero_mul, e2, zero_add, e3, mul_one, add_zero, mul_zero, e4, Int.tmod_eq_emod_of_nonneg hD]
    rw [if_neg (by omega)]
  · have hn : N ≠ 0 := by omega
    refine ⟨?_, ?_, Int.emod_nonneg _ hn, Int.emod_lt_of_pos _ hN, by simp, Int.ediv_nonneg hD hN.le, by simp, by simp, by simp; omega, by simp; omega⟩
    · simp only; rw [mul_comm, one_mul]; exact Int.mul_ediv_add_emod D N
    · simp

end Cardano.Util
