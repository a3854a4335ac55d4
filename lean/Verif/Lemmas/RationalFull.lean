import Verif.Lemmas.Rational

/-! # The continued-fraction loop of `rationalApprox`: everything about its result -/

namespace Cardano.Util

/-- What the result `h1/k1` of the loop satisfies, for the input `D/N` and the bound `md`. -/
structure RaPost (D N md : Int) (s : RaState) : Prop where
  hp : 0 ≤ s.h1
  kp : 1 ≤ s.k1
  kl : s.k1 ≤ md
  unit : D ≤ N → s.h1 ≤ s.k1
  cop : ∃ u v : Int, s.h1 * u + s.k1 * v = 1

/-- The distance to the input, as integers: `|D/N - h1/k1| ≤ 1/md`. -/
def RaClose (D N md : Int) (s : RaState) : Prop :=
  (D * s.k1 - N * s.h1) * md ≤ N * s.k1 ∧ -((D * s.k1 - N * s.h1) * md) ≤ N * s.k1

theorem ra_post_of_inv {D N md σ : Int} {s : RaState} (hi : RaInv D N md s) (hσ : σ = 1 ∨ σ = -1)
    (hdet : s.h1 * s.k0 - s.h0 * s.k1 = σ) : RaPost D N md s ∧ D * s.k1 - N * s.h1 = -σ * s.n := by
  obtain ⟨hD, hN, n0, nd, h0p, h1p, k0p, k1p, k0l, k1l⟩ := hi
  have he : D * s.k1 - N * s.h1 = -σ * s.n := by rw [← hD, ← hN, ← hdet]; ring
  have hdN : s.d ≤ N := by nlinarith
  refine ⟨⟨h1p, k1p, by linarith, ?_, ?_⟩, he⟩
  · intro hDN
    by_contra hc
    have hc : s.k1 + 1 ≤ s.h1 := by omega
    have h1 : N * (s.k1 + 1) ≤ N * s.h1 := mul_le_mul_of_nonneg_left hc (by linarith)
    have h2 : D * s.k1 ≤ N * s.k1 := mul_le_mul_of_nonneg_right hDN (by linarith)
    rcases hσ with rfl | rfl <;> nlinarith
  · rcases hσ with rfl | rfl
    · exact ⟨s.k0, -s.h0, by linarith⟩
    · exact ⟨-s.k0, s.h0, by linarith⟩

set_option maxHeartbeats 1000000 in
theorem ra_full {D N md : Int} (hNb : N ≤ 2 ^ 62) (hor : N ≤ 2 ^ 61 ∨ md ≤ 2 ^ 61) (hDb : D < 2 ^ 63) :
    ∀ (rem j : Nat) (s : RaState) (σ : Int), RaInv D N md s → (σ = 1 ∨ σ = -1) → s.h1 * s.k0 - s.h0 * s.k1 = σ →
    j + rem = 63 → (Nat.fib (j + 1) : Int) ≤ s.k1 → (Nat.fib j : Int) ≤ s.k0 →
    ∃ s', raLoop md rem false s = .ok s' ∧ RaPost D N md s' ∧ (md ≤ 2 ^ 43 → RaClose D N md s') := by
  intro rem
  induction rem with
  | zero =>
    intro j s σ hi hσ hdet hj hf1 hf0
    refine ⟨s, rfl, (ra_post_of_inv hi hσ hdet).1, fun hmd => ?_⟩
    exfalso
    have hj : j = 63 := by omega
    subst hj
    have : Nat.fib 64 = 10610209857723 := by
      rw [Nat.fib_eq_fastFib]; decide +kernel
    have hf1 : (10610209857723 : Int) ≤ s.k1 := by rw [← show ((Nat.fib (63 + 1) : Nat) : Int) = 10610209857723 by rw [this]; rfl]; exact hf1
    have := hi.k1l
    have : (2 : Int) ^ 43 = 8796093022208 := by norm_num
    omega
  | succ rem ih =>
    intro j s σ hi hσ hdet hj hf1 hf0
    obtain ⟨hpost, herr⟩ := ra_post_of_inv hi hσ hdet
    by_cases hn : s.n = 0
    · refine ⟨s, by simp [raLoop, hn], hpost, fun _ => ?_⟩
      have hN := hi.hN
      have hk := hi.k1p
      have hk0 := hi.k0p
      have hnd := hi.nd
      have : 0 ≤ N := by rw [← hN, hn]; nlinarith
      have : 0 ≤ N * s.k1 := by positivity
      unfold RaClose
      rw [herr, hn]; constructor <;> linarith
    · have hnp : 0 < s.n := lt_of_le_of_ne hi.n0 (Ne.symm hn)
      have han : s.d / s.n * s.n ≤ s.d := Int.ediv_mul_le s.d hn
      have hmd0 : 0 < md := by have := hi.k1l; have := hi.k1p; linarith
      -- the facts of `ra_step`, with the wider bound on `N`
      have hstep : let a := s.d / s.n
          1 ≤ a ∧ 0 ≤ s.k1 * a ∧ s.k1 * a + s.k0 ≤ N ∧ 0 ≤ a * s.h1 + s.h0 ∧ a * s.h1 + s.h0 ≤ D ∧
          s.d.tdiv s.n = a ∧ s.d.tmod s.n = s.d % s.n ∧ a ≤ N := by
        intro a
        obtain ⟨hD, hN, n0, nd, h0p, h1p, k0p, k1p, k0l, k1l⟩ := hi
        have ha1 : 1 ≤ a := by
          apply Int.le_ediv_of_mul_le hnp; linarith
        have hk : s.k1 * a + s.k0 ≤ N := by
          have h1 : s.n * (s.k1 * a + s.k0) ≤ N := by
            have : s.k1 * (a * s.n) ≤ s.k1 * s.d := mul_le_mul_of_nonneg_left han (by linarith)
            nlinarith
          have h2 : 0 ≤ s.k1 * a + s.k0 := by positivity
          nlinarith
        have hh : a * s.h1 + s.h0 ≤ D := by
          have h1 : s.n * (a * s.h1 + s.h0) ≤ D := by
            have : s.h1 * (a * s.n) ≤ s.h1 * s.d := mul_le_mul_of_nonneg_left han h1p
            nlinarith
          have h2 : 0 ≤ a * s.h1 + s.h0 := by positivity
          nlinarith
        refine ⟨ha1, by positivity, hk, by positivity, hh, Int.tdiv_eq_ediv_of_nonneg (by linarith),
          Int.tmod_eq_emod_of_nonneg (by linarith), by nlinarith⟩
      obtain ⟨ha1, hka, hk, hh0, hh, ht, hm, haN⟩ := hstep
      have b62 : (2 : Int) ^ 62 < 2 ^ 63 := by norm_num
      have hk0 := hi.k0p
      have hdm : s.d = s.n * (s.d / s.n) + s.d % s.n := (Int.mul_ediv_add_emod s.d s.n).symm
      have e1 : i64 (s.d.tdiv s.n) = .ok (s.d / s.n) := by
        rw [ht]; exact i64_ok (by linarith) (by linarith)
      have e2 : i64 (s.k1 * (s.d / s.n)) = .ok (s.k1 * (s.d / s.n)) := i64_ok hka (by linarith)
      have e3 : i64 (s.k1 * (s.d / s.n) + s.k0) = .ok (s.k1 * (s.d / s.n) + s.k0) :=
        i64_ok (by linarith) (by linarith)
      by_cases hq : s.k1 * (s.d / s.n) + s.k0 < md
      · have e4 : i64 (s.d / s.n * s.h1 + s.h0) = .ok (s.d / s.n * s.h1 + s.h0) := i64_ok hh0 (by linarith)
        have e5 : i64 (s.d / s.n * s.k1 + s.k0) = .ok (s.d / s.n * s.k1 + s.k0) := by
          rw [mul_comm]; exact e3
        have hinv : RaInv D N md ⟨s.n, s.d % s.n, s.h1, s.d / s.n * s.h1 + s.h0, s.k1, s.d / s.n * s.k1 + s.k0⟩ := by
          obtain ⟨hD, hN, n0, nd, h0p, h1p, k0p, k1p, k0l, k1l⟩ := hi
          refine ⟨?_, ?_, Int.emod_nonneg _ hn, Int.emod_lt_of_pos _ hnp, h1p, hh0, by linarith, ?_, by linarith, ?_⟩
          · simp only
            rw [← hD]
            linear_combination (-s.h1) * hdm
          · simp only
            rw [← hN]
            linear_combination (-s.k1) * hdm
          · simp only
            nlinarith
          · simp only
            linarith [mul_comm s.k1 (s.d / s.n)]
        obtain ⟨s', hs', hP⟩ := ih (j + 1) _ (-σ) hinv (by rcases hσ with rfl | rfl <;> simp)
          (by simp only; rw [← hdet]; ring) (by omega)
          (by
            simp only
            rw [Nat.fib_add_two]
            push_cast
            have := hi.k1p
            nlinarith) hf1
        refine ⟨s', ?_, hP⟩
        rw [← hs']
        rw [raLoop]
        have hne : s.d / s.n ≠ 0 := by omega
        simp only [ne_eq, hn, not_false_eq_true, if_true, e1, Out.ok_bind, e2, e3, e4, e5, hne, and_false, if_false, hm]
        rw [if_neg (by omega)]
      · have hk1 : s.k1 ≠ 0 := by have := hi.k1p; omega
        have hx0 : 0 ≤ md - s.k0 := by linarith [hi.k0l]
        have hxt : (md - s.k0).tdiv s.k1 = (md - s.k0) / s.k1 := Int.tdiv_eq_ediv_of_nonneg hx0
        have hxn : 0 ≤ (md - s.k0) / s.k1 := Int.ediv_nonneg hx0 (by linarith [hi.k1p])
        have hxk : (md - s.k0) / s.k1 * s.k1 ≤ md - s.k0 := Int.ediv_mul_le _ hk1
        have hxk2 : md - s.k0 < ((md - s.k0) / s.k1 + 1) * s.k1 := Int.lt_ediv_add_one_mul_self _ (by have := hi.k1p; omega)
        have hxm : (md - s.k0) / s.k1 ≤ md := by
          have h1 : (md - s.k0) / s.k1 ≤ md - s.k0 := Int.ediv_le_self _ hx0
          linarith
        have hxa : (md - s.k0) / s.k1 ≤ s.d / s.n := by
          by_contra hc
          have hk1p := hi.k1p
          have : (s.d / s.n + 1) * s.k1 ≤ (md - s.k0) / s.k1 * s.k1 :=
            mul_le_mul_of_nonneg_right (by omega) (by linarith)
          nlinarith
        have e4 : i64 ((md - s.k0) / s.k1 * 2) = .ok ((md - s.k0) / s.k1 * 2) := by
          apply i64_ok (by positivity)
          have : (2:Int) ^ 62 = 2 ^ 61 * 2 := by norm_num
          rcases hor with h | h <;> linarith
        rw [raLoop]
        have hne : s.d / s.n ≠ 0 := by omega
        simp only [ne_eq, hn, not_false_eq_true, if_true, e1, Out.ok_bind, e2, e3, e4, hne, and_false, if_false, hm, hk1, hxt]
        rw [if_pos (by omega)]
        by_cases hy : (md - s.k0) / s.k1 * 2 ≥ s.d / s.n ∨ s.k1 ≥ md
        · rw [if_pos hy]
          have hx1 : 1 ≤ (md - s.k0) / s.k1 := by
            rcases hy with h | h
            · omega
            · have := hi.k1l; omega
          generalize (md - s.k0) / s.k1 = x at *
          have hh1 : x * s.h1 ≤ s.d / s.n * s.h1 := mul_le_mul_of_nonneg_right hxa hi.h1p
          have e5 : i64 (x * s.h1 + s.h0) = .ok (x * s.h1 + s.h0) := by
            have h1p := hi.h1p
            have h0p := hi.h0p
            exact i64_ok (by positivity) (by linarith)
          have hk1' : x * s.k1 ≤ s.d / s.n * s.k1 := mul_le_mul_of_nonneg_right hxa (by linarith [hi.k1p])
          have e6 : i64 (x * s.k1 + s.k0) = .ok (x * s.k1 + s.k0) := by
            have k1p := hi.k1p
            exact i64_ok (by positivity) (by linarith [mul_comm s.k1 (s.d / s.n)])
          simp only [e5, e6, Out.ok_bind, Out.pure_eq]
          refine ⟨_, rfl, ?_, ?_⟩
          all_goals
            obtain ⟨hD, hN, n0, nd, h0p, h1p, k0p, k1p, k0l, k1l⟩ := hi
            have hE : D * (x * s.k1 + s.k0) - N * (x * s.h1 + s.h0) = σ * (s.d - x * s.n) := by
              rw [← hD, ← hN, ← hdet]; ring
            have hxn' : x * s.n ≤ s.d := le_trans (mul_le_mul_of_nonneg_right hxa n0) han
            have hkp : 1 ≤ x * s.k1 + s.k0 := by
              have := one_le_mul_of_one_le_of_one_le hx1 k1p
              linarith
          · refine ⟨by simp only; positivity, hkp, by simp only; linarith, ?_, ?_⟩
            · intro hDN
              simp only
              by_contra hc
              have hc : (x * s.k1 + s.k0) + 1 ≤ x * s.h1 + s.h0 := by omega
              have hd0 : 0 ≤ s.d := by linarith
              have hd1 : 1 * s.d ≤ s.k1 * s.d := mul_le_mul_of_nonneg_right k1p hd0
              have hd2 : 0 ≤ s.k0 * s.n := mul_nonneg k0p n0
              have hNp : 0 ≤ N := by linarith
              have g1 : N * ((x * s.k1 + s.k0) + 1) ≤ N * (x * s.h1 + s.h0) := mul_le_mul_of_nonneg_left hc hNp
              have g2 : D * (x * s.k1 + s.k0) ≤ N * (x * s.k1 + s.k0) := mul_le_mul_of_nonneg_right hDN (by linarith)
              have hdN : s.d ≤ N := by linarith
              have g4 : 0 < x * s.n := mul_pos (by linarith) hnp
              have g3 : s.d - x * s.n < N := by linarith
              rw [mul_add] at g1
              rcases hσ with rfl | rfl <;> linarith
            · simp only
              rcases hσ with rfl | rfl
              · exact ⟨-s.k1, s.h1, by linear_combination hdet⟩
              · exact ⟨s.k1, -s.h1, by linear_combination -hdet⟩
          · intro _
            unfold RaClose
            simp only
            rw [hE]
            have hy0 : 0 ≤ s.d - x * s.n := by linarith
            have hsplit : N = s.k1 * (s.d - x * s.n) + (x * s.k1 + s.k0) * s.n := by rw [← hN]; ring
            generalize s.d - x * s.n = y at *
            generalize hK : x * s.k1 + s.k0 = k at *
            have hmd : md ≤ k * s.k1 := by
              have h1 : md < k + s.k1 := by rw [← hK]; nlinarith
              nlinarith
            have h2 : y * md ≤ N * k := by
              have h3 : y * md ≤ y * (k * s.k1) := mul_le_mul_of_nonneg_left hmd hy0
              have h4 : 0 ≤ k * s.n * k := by positivity
              rw [hsplit]; nlinarith
            have h5 : 0 ≤ y * md := by positivity
            rcases hσ with rfl | rfl <;> constructor <;> linarith
        · rw [if_neg hy]
          refine ⟨_, rfl, ⟨hpost.hp, hpost.kp, hpost.kl, hpost.unit, hpost.cop⟩, fun _ => ?_⟩
          unfold RaClose
          simp only
          rw [herr]
          have h1 : s.n * md ≤ N := by
            rw [← hi.hN]
            have h1p := hi.k1p
            have : s.n * md ≤ s.n * (s.k1 * (s.d / s.n) + s.k0) := mul_le_mul_of_nonneg_left (by omega) hi.n0
            nlinarith
          have h0 : 0 ≤ s.n * md := by positivity
          have h2 : N ≤ N * s.k1 := by have := hi.k1p; nlinarith
          rcases hσ with rfl | rfl <;> constructor <;> linarith

end Cardano.Util
