import Verif.Lemmas.CrcDist
import Mathlib.Dynamics.PeriodicPts.Defs
import Mathlib.Data.Nat.Factors
import Mathlib.Data.Nat.Prime.Basic
import Mathlib.Tactic.NormNum.Prime
import Mathlib.Tactic.Ring

/-! # CRC-32: the shift has period `2^32 - 1`, so any two flipped bits are noticed -/

namespace Cardano.Byron

/-- The lowest `j` bits, highest first. -/
def bitsDown : Nat → Nat → List Bool
  | 0, _ => []
  | j + 1, v => v.testBit j :: bitsDown j v

/-- The top bit. -/
abbrev top : BitVec 32 := 0x80000000#32

theorem comb_bits : ∀ (j : Nat) (v : Nat), j < 32 → (comb (BitVec.ofNat 32 (2 ^ j)) (bitsDown (j + 1) v)).toNat = v % 2 ^ (j + 1) := by
  intro j
  induction j with
  | zero =>
    intro v _
    simp only [bitsDown, comb, Nat.pow_zero, BitVec.xor_zero, Nat.zero_add, Nat.pow_one]
    rw [Nat.testBit_zero]
    rcases Nat.mod_two_eq_zero_or_one v with h | h <;> simp [h]
  | succ j ih =>
    intro v hj
    rw [bitsDown, comb, BitVec.toNat_xor]
    have hs : crcShift (BitVec.ofNat 32 (2 ^ (j + 1))) = BitVec.ofNat 32 (2 ^ j) := by
      rw [Nat.pow_succ, Nat.mul_comm]
      exact crcShift_even _ (Nat.pow_lt_pow_right (by decide) (by omega))
    rw [hs, ih v (by omega)]
    have hp : (2 : Nat) ^ (j + 1) < 2 ^ 32 := Nat.pow_lt_pow_right (by decide) hj
    apply Nat.eq_of_testBit_eq
    intro i
    rw [Nat.testBit_xor, Nat.testBit_mod_two_pow, Nat.testBit_mod_two_pow]
    have hb : (if v.testBit (j + 1) = true then BitVec.ofNat 32 (2 ^ (j + 1)) else 0#32).toNat.testBit i =
        (v.testBit (j + 1) && decide (j + 1 = i)) := by
      cases v.testBit (j + 1)
      · simp
      · simp only [if_true, BitVec.toNat_ofNat, Nat.mod_eq_of_lt hp, Nat.testBit_two_pow, Bool.true_and]
    rw [hb]
    by_cases hi : j + 1 = i
    · subst hi; simp
    · by_cases h2 : i < j + 1
      · simp [hi, h2, Nat.lt_succ_of_lt h2]
      · have h3 : ¬ i < j + 1 + 1 := by omega
        simp only [hi, h2, h3, decide_false, Bool.and_false, Bool.false_and, Bool.xor_false]

theorem comb_top (v : BitVec 32) : comb top (bitsDown 32 v.toNat) = v := by
  apply BitVec.eq_of_toNat_eq
  have := comb_bits 31 v.toNat (by decide)
  rw [Nat.mod_eq_of_lt (show v.toNat < 2 ^ (31 + 1) from v.isLt)] at this
  exact this

/-- Squaring. -/
def sq (w : BitVec 32) : BitVec 32 := comb w (bitsDown 32 w.toNat)

theorem iter_add {α} (f : α → α) : ∀ (m n : Nat) (a : α), iter f (m + n) a = iter f n (iter f m a) := by
  intro m
  induction m with
  | zero => intro n a; rw [Nat.zero_add]; rfl
  | succ m ih => intro n a; rw [Nat.succ_add, iter, ih, iter]

theorem sq_iter (k : Nat) : sq (iter crcShift k top) = iter crcShift (k + k) top := by
  unfold sq
  rw [comb_iter, comb_top, iter_add]

/-- Power by squaring; bits of the exponent, highest first. -/
def pw : List Bool → BitVec 32 → BitVec 32
  | [], w => w
  | b :: l, w => pw l (if b then crcShift (sq w) else sq w)

/-- Value of bits, highest first. -/
def val : List Bool → Nat → Nat
  | [], k => k
  | b :: l, k => val l (2 * k + b.toNat)

theorem pw_iter : ∀ (l : List Bool) (k : Nat), pw l (iter crcShift k top) = iter crcShift (val l k) top := by
  intro l
  induction l with
  | nil => intro k; rfl
  | cons b l ih =>
    intro k
    rw [pw, val, ← ih, sq_iter]
    congr 1
    cases b
    · simp [Nat.two_mul]
    · simp only [if_true, Bool.toNat_true]
      rw [Nat.two_mul, iter_add (m := k + k) (n := 1)]; rfl

theorem iter_pw (e : Nat) (h : val (bitsDown 32 e) 0 = e) : iter crcShift e top = pw (bitsDown 32 e) top := by
  have := pw_iter (bitsDown 32 e) 0
  rw [h] at this
  exact this.symm

theorem iter_eq {α} (f : α → α) : ∀ (n : Nat) (a : α), iter f n a = f^[n] a := by
  intro n
  induction n with
  | zero => intro a; rfl
  | succ n ih => intro a; rw [iter, ih]; rfl

theorem period_pw : iter crcShift (2 ^ 32 - 1) top = top := by
  rw [iter_pw _ (by decide +kernel)]; decide +kernel
theorem period3 : iter crcShift ((2 ^ 32 - 1) / 3) top ≠ top := by
  rw [iter_pw _ (by decide +kernel)]; decide +kernel
theorem period5 : iter crcShift ((2 ^ 32 - 1) / 5) top ≠ top := by
  rw [iter_pw _ (by decide +kernel)]; decide +kernel
theorem period17 : iter crcShift ((2 ^ 32 - 1) / 17) top ≠ top := by
  rw [iter_pw _ (by decide +kernel)]; decide +kernel
theorem period257 : iter crcShift ((2 ^ 32 - 1) / 257) top ≠ top := by
  rw [iter_pw _ (by decide +kernel)]; decide +kernel
theorem period65537 : iter crcShift ((2 ^ 32 - 1) / 65537) top ≠ top := by
  rw [iter_pw _ (by decide +kernel)]; decide +kernel

/-- A proper divisor of `n` divides `n / q` for a prime `q` dividing `n`. -/
theorem dvd_div_prime {d n : Nat} (hn : 0 < n) (h : d ∣ n) (hne : d ≠ n) : ∃ q, q.Prime ∧ q ∣ n ∧ d ∣ n / q := by
  obtain ⟨c, rfl⟩ := h
  have hc : c ≠ 1 := by rintro rfl; simp at hne
  obtain ⟨q, hq, e, rfl⟩ := Nat.exists_prime_and_dvd hc
  refine ⟨q, hq, ⟨d * e, by ring⟩, ⟨e, ?_⟩⟩
  rw [show d * (q * e) = q * (d * e) by ring, Nat.mul_div_cancel_left _ hq.pos]

theorem prime_factor {q : Nat} (hq : q.Prime) (h : q ∣ 2 ^ 32 - 1) : q = 3 ∨ q = 5 ∨ q = 17 ∨ q = 257 ∨ q = 65537 := by
  have e : (2 : Nat) ^ 32 - 1 = 3 * (5 * (17 * (257 * 65537))) := by decide
  rw [e] at h
  have d : ∀ p : Nat, p.Prime → q ∣ p → q = p := fun p hp hd => (Nat.prime_dvd_prime_iff_eq hq hp).mp hd
  rcases (hq.dvd_mul).mp h with h | h
  · exact Or.inl (d 3 (by norm_num) h)
  rcases (hq.dvd_mul).mp h with h | h
  · exact Or.inr (Or.inl (d 5 (by norm_num) h))
  rcases (hq.dvd_mul).mp h with h | h
  · exact Or.inr (Or.inr (Or.inl (d 17 (by norm_num) h)))
  rcases (hq.dvd_mul).mp h with h | h
  · exact Or.inr (Or.inr (Or.inr (Or.inl (d 257 (by norm_num) h))))
  · exact Or.inr (Or.inr (Or.inr (Or.inr (d 65537 (by norm_num) h))))

theorem minimalPeriod_top : Function.minimalPeriod crcShift top = 2 ^ 32 - 1 := by
  have hp : Function.IsPeriodicPt crcShift (2 ^ 32 - 1) top := by
    unfold Function.IsPeriodicPt Function.IsFixedPt
    rw [← iter_eq]; exact period_pw
  have no : ∀ k, iter crcShift k top ≠ top → ¬ Function.minimalPeriod crcShift top ∣ k := by
    intro k hk hd
    have := Function.isPeriodicPt_iff_minimalPeriod_dvd.mpr hd
    unfold Function.IsPeriodicPt Function.IsFixedPt at this
    rw [← iter_eq] at this
    exact hk this
  by_contra hne
  obtain ⟨q, hq, hqn, hd⟩ := dvd_div_prime (by norm_num) hp.minimalPeriod_dvd hne
  rcases prime_factor hq hqn with rfl | rfl | rfl | rfl | rfl
  · exact no _ period3 hd
  · exact no _ period5 hd
  · exact no _ period17 hd
  · exact no _ period257 hd
  · exact no _ period65537 hd

/-- The columns of the first `2^32 - 1` positions are different. -/
theorem iter_top_ne {k : Nat} (h0 : 0 < k) (hk : k < 2 ^ 32 - 1) : iter crcShift k top ≠ top := by
  intro h
  have hp : Function.IsPeriodicPt crcShift k top := by
    unfold Function.IsPeriodicPt Function.IsFixedPt
    rw [← iter_eq]; exact h
  have := Nat.le_of_dvd h0 hp.minimalPeriod_dvd
  rw [minimalPeriod_top] at this
  omega

theorem comb_weight0 : ∀ (r : List Bool) (u : BitVec 32), weight r = 0 → comb u r = 0#32 := by
  intro r
  induction r with
  | nil => intro u _; rfl
  | cons b r ih =>
    intro u h
    cases b
    · rw [comb, ih _ (by simpa [weight] using h)]; simp
    · simp [weight] at h

/-- Feeding a bit string of at most `2^32 - 1` bits with one or two ones does not give zero. -/
theorem feed_weight2 (e : List Bool) (hl : e.length ≤ 2 ^ 32 - 1) (h1 : 1 ≤ weight e) (h2 : weight e ≤ 2) :
    e.foldl crcBit 0#32 ≠ 0#32 := by
  intro h0
  have hf := feed_comb e.reverse
  rw [List.reverse_reverse, h0] at hf
  have hu : crcShift 1#32 = iter crcShift 32 top := by decide +kernel
  rw [hu] at hf
  have hz := comb_shift_zero 32 hf.symm
  have hw : weight e.reverse = weight e := by simp [weight]
  obtain ⟨m, r, e1, e2⟩ := split_weight e.reverse (by omega)
  have hlen : r.length < 2 ^ 32 - 1 := by
    have := congrArg List.length e1
    simp only [List.length_reverse, List.length_append, List.length_replicate, List.length_cons] at this
    omega
  rw [e1, comb_skip] at hz
  have hz := comb_shift_zero m hz
  rw [comb, if_pos rfl] at hz
  have hz := xor_eq_zero hz
  by_cases hr : weight r = 0
  · rw [comb_weight0 r _ hr] at hz
    exact absurd hz (by decide)
  · obtain ⟨m', r', e3, e4⟩ := split_weight r (by omega)
    rw [e3, comb_skip, comb, comb_weight0 r' _ (by omega), if_pos rfl, BitVec.xor_zero] at hz
    refine iter_top_ne (k := m' + 1) (by omega) ?_ hz.symm
    have := congrArg List.length e3
    simp only [List.length_append, List.length_replicate, List.length_cons] at this
    omega

end Cardano.Byron
