import Verif.Props.Ada

/-! # C80: exactly which amounts do not survive the round trip through ADA

A closed form over whole numbers, for every amount below 2^53 lovelace. -/

namespace Cardano.Ada

theorem rne_down {X : ℤ} {η : ℚ} (h1 : -1 < η) (h2 : η < -(1 / 2)) : rne (X + η) = X - 1 := by
  have hf : ⌊(X : ℚ) + η⌋ = X - 1 := by rw [Int.floor_eq_iff]; push_cast; constructor <;> linarith
  unfold rne
  rw [hf, if_pos (by push_cast; linarith)]

theorem rne_up {X : ℤ} {η : ℚ} (h1 : 1 / 2 < η) (h2 : η < 1) : rne (X + η) = X + 1 := by
  have hf : ⌊(X : ℚ) + η⌋ = X := by rw [Int.floor_eq_iff]; constructor <;> linarith
  unfold rne
  rw [hf, if_neg (by linarith), if_pos (by linarith)]

theorem rne_same {X : ℤ} {η : ℚ} (h1 : -(1 / 2) < η) (h2 : η < 1 / 2) : rne (X + η) = X := by
  unfold rne
  rcases lt_or_ge η 0 with h | h
  · have hf : ⌊(X : ℚ) + η⌋ = X - 1 := by rw [Int.floor_eq_iff]; push_cast; constructor <;> linarith
    rw [hf, if_neg (by push_cast; linarith), if_pos (by push_cast; linarith)]; ring
  · have hf : ⌊(X : ℚ) + η⌋ = X := by rw [Int.floor_eq_iff]; constructor <;> linarith
    rw [hf, if_pos (by linarith)]

theorem rne_tie {X : ℤ} {η : ℚ} (h : η = 1 / 2 ∨ η = -(1 / 2)) :
    rne (X + η) = if X % 2 = 0 then X else if η = 1 / 2 then X + 1 else X - 1 := by
  unfold rne
  rcases h with rfl | rfl
  · have hf : ⌊(X : ℚ) + 1 / 2⌋ = X := by rw [Int.floor_eq_iff]; constructor <;> linarith
    rw [hf, if_neg (by linarith), if_neg (by linarith)]; simp
  · have hf : ⌊(X : ℚ) + -(1 / 2)⌋ = X - 1 := by rw [Int.floor_eq_iff]; push_cast; constructor <;> linarith
    rw [hf, if_neg (by push_cast; linarith), if_neg (by push_cast; linarith)]
    by_cases hx : X % 2 = 0
    · rw [if_pos hx, if_neg (by omega)]; ring
    · rw [if_neg hx, if_pos (by omega), if_neg (by norm_num)]

theorem rne_div (N : ℕ) (h : N % 1000000 ≠ 500000) :
    rne ((N : ℚ) / 1000000) = ((N / 1000000 + if 500000 < N % 1000000 then 1 else 0 : ℕ) : ℤ) := by
  have e : (N : ℚ) = 1000000 * (N / 1000000 : ℕ) + (N % 1000000 : ℕ) := by exact_mod_cast (Nat.div_add_mod N 1000000).symm
  have hr : N % 1000000 < 1000000 := Nat.mod_lt _ (by norm_num)
  rw [e]
  generalize N / 1000000 = Q at *
  generalize N % 1000000 = r at *
  have hrq : (r : ℚ) < 1000000 := by exact_mod_cast hr
  have e2 : (1000000 * (Q : ℚ) + r) / 1000000 = ((Q : ℤ) : ℚ) + r / 1000000 := by push_cast; field_simp
  have hr0 : (0 : ℚ) ≤ r := by positivity
  rw [e2]
  split
  · rename_i hlt
    have : (500000 : ℚ) < r := by exact_mod_cast hlt
    rw [rne_up (by linarith) (by linarith)]; push_cast; rfl
  · rename_i hlt
    have : (r : ℚ) < 500000 := by exact_mod_cast (by omega : r < 500000)
    rw [rne_same (by linarith) (by linarith)]; push_cast; rfl

theorem fl_at {q : ℚ} (l : ℤ) (h1 : (2 : ℚ) ^ l ≤ q) (h2 : q < 2 ^ (l + 1)) (hl : -1022 ≤ l) :
    fl q = rne (q / 2 ^ (l - 52)) * 2 ^ (l - 52) := by
  have hq : 0 < q := lt_of_lt_of_le (two_zpow_pos l) h1
  unfold fl
  rw [if_pos hq]
  unfold flPos lastPlace
  rw [log_eq h1 h2, max_eq_left (by omega)]

/-- The product before the last rounding: the amount, shifted, plus the error of the division. -/
theorem product_exact (x k c t : ℕ) (hc : k + c = 52) (ht : 6 ≤ t) (hx : x < 2 ^ (k + 1))
    (h1 : 1000000 * 2 ^ k ≤ 2 ^ t * x) (h2 : 2 ^ t * x < 1000000 * 2 ^ (k + 1)) (ht' : t ≤ 100) :
    x * 2 ^ (t + c) % 1000000 ≠ 500000 ∧
    1000000 * love2ada x = ((x * 2 ^ c : ℕ) + (((if 500000 < x * 2 ^ (t + c) % 1000000 then 1000000 else 0 : ℕ) : ℚ)
      - (x * 2 ^ (t + c) % 1000000 : ℕ)) / 2 ^ t) / 2 ^ c := by
  have hN : x * 2 ^ (t + c) % 1000000 ≠ 500000 := by
    intro h
    have h64 : 64 ∣ x * 2 ^ (t + c) := Dvd.dvd.mul_left (by
      have : (64 : ℕ) = 2 ^ 6 := by norm_num
      rw [this]; exact pow_dvd_pow 2 (by omega)) x
    have := (Nat.dvd_mod_iff (show 64 ∣ 1000000 by decide)).mpr h64
    rw [h] at this
    exact absurd this (by decide)
  refine ⟨hN, ?_⟩
  have hxl : x ≤ 2 ^ 53 := le_trans hx.le (Nat.pow_le_pow_right (by norm_num) (by omega))
  have e0 : love2ada x = fl ((x : ℚ) / 1000000) := by
    unfold love2ada
    rw [show ((x : ℤ) : ℚ) = (x : ℚ) by push_cast; rfl, fl_nat x hxl]
  have h1q : (1000000 : ℚ) * 2 ^ k ≤ 2 ^ t * x := by exact_mod_cast h1
  have h2q : (2 : ℚ) ^ t * x < 1000000 * 2 ^ (k + 1) := by exact_mod_cast h2
  have hz : ∀ a b : ℕ, (2 : ℚ) ^ ((a : ℤ) - b) = 2 ^ a / 2 ^ b := by
    intro a b; rw [zpow_sub₀ (by norm_num), zpow_natCast, zpow_natCast]
  have hp : ∀ a : ℕ, (0 : ℚ) < 2 ^ a := fun a => by positivity
  have el : (((k : ℤ) - t) - 52 : ℤ) = ((0 : ℕ) : ℤ) - ((t + c : ℕ) : ℤ) := by push_cast; omega
  rw [e0, fl_at ((k : ℤ) - t) (by rw [hz, div_le_div_iff₀ (hp _) (by norm_num)]; linarith)
    (by
      rw [show ((k : ℤ) - t + 1) = ((k + 1 : ℕ) : ℤ) - t by push_cast; ring, hz, div_lt_div_iff₀ (by norm_num) (hp _)]
      linarith) (by omega), el, hz]
  have e3 : (x : ℚ) / 1000000 / (2 ^ 0 / 2 ^ (t + c)) = ((x * 2 ^ (t + c) : ℕ) : ℚ) / 1000000 := by
    push_cast; field_simp
  rw [e3, rne_div _ hN]
  have eN : ((x * 2 ^ (t + c) : ℕ) : ℚ) = 1000000 * (x * 2 ^ (t + c) / 1000000 : ℕ) + (x * 2 ^ (t + c) % 1000000 : ℕ) := by
    exact_mod_cast (Nat.div_add_mod (x * 2 ^ (t + c)) 1000000).symm
  generalize x * 2 ^ (t + c) / 1000000 = Q at *
  generalize x * 2 ^ (t + c) % 1000000 = r at *
  have eX : ((x * 2 ^ c : ℕ) : ℚ) = (1000000 * Q + r) / 2 ^ t := by
    rw [← eN, eq_div_iff (hp _).ne']; push_cast; rw [pow_add]; ring
  rw [eX, pow_add]
  split <;> (push_cast; field_simp; ring)

theorem fl_scaled (c : ℕ) (hc : c ≤ 1000) (w : ℚ) (h1 : (2 : ℚ) ^ 52 ≤ w) (h2 : w < 2 ^ 53) :
    fl (w / 2 ^ c) = (rne w : ℚ) / 2 ^ c := by
  have hp : (0 : ℚ) < 2 ^ c := by positivity
  have ek : (2 : ℚ) ^ (52 - (c : ℤ)) = 2 ^ 52 / 2 ^ c := by
    rw [zpow_sub₀ (by norm_num), zpow_natCast]; norm_cast
  have ek1 : (2 : ℚ) ^ (52 - (c : ℤ) + 1) = 2 ^ 53 / 2 ^ c := by
    rw [zpow_add₀ (by norm_num), ek]; ring
  have e : (2 : ℚ) ^ (52 - (c : ℤ) - 52) = 1 / 2 ^ c := by
    rw [show 52 - (c : ℤ) - 52 = -(c : ℤ) by omega, zpow_neg, zpow_natCast]; simp
  rw [fl_at (52 - (c : ℤ)) (by rw [ek]; gcongr) (by rw [ek1]; gcongr) (by omega), e]
  rw [show w / 2 ^ c / (1 / 2 ^ c) = w by field_simp]
  ring

theorem trunc_floor {q : ℚ} {n : ℤ} (h0 : 0 ≤ q) (h1 : (n : ℚ) ≤ q) (h2 : q < n + 1) (hn : -2 ^ 63 ≤ n ∧ n < 2 ^ 63) :
    truncI64 q = .ok n := by
  have hf : ⌊q⌋ = n := by rw [Int.floor_eq_iff]; exact ⟨h1, h2⟩
  unfold truncI64
  simp only [if_pos h0, hf, if_pos hn]

theorem trunc_at (x c : ℕ) (hx : x < 2 ^ 53) (m : ℤ) (hm : m = 0 ∨ m = 1 ∨ m = -1) (h0 : 0 < x) :
    truncI64 ((((x * 2 ^ c : ℕ) : ℤ) + m : ℤ) / 2 ^ c) =
      .ok (if m = -1 then (x : ℤ) - 1 else if m = 1 ∧ c = 0 then (x : ℤ) + 1 else x) := by
  have hp : (0 : ℚ) < 2 ^ c := by positivity
  have hp1 : (1 : ℚ) ≤ 2 ^ c := one_le_pow₀ (by norm_num)
  have hx1 : (1 : ℚ) ≤ x := by exact_mod_cast h0
  have ev : ((((x * 2 ^ c : ℕ) : ℤ) + m : ℤ) : ℚ) / 2 ^ c = x + m / 2 ^ c := by push_cast; field_simp
  rw [ev]
  have hi : (1 : ℚ) / 2 ^ c ≤ 1 := by rw [div_le_one hp]; exact hp1
  have hi0 : (0 : ℚ) < 1 / 2 ^ c := by positivity
  rcases hm with rfl | rfl | rfl
  · rw [if_neg (by decide), if_neg (by simp)]
    refine trunc_floor ?_ ?_ ?_ (by omega) <;> push_cast <;> rw [zero_div] <;> linarith
  · rw [if_neg (by decide)]
    by_cases hc0 : c = 0
    · rw [if_pos ⟨rfl, hc0⟩]
      subst hc0
      refine trunc_floor ?_ ?_ ?_ (by omega) <;> push_cast <;> linarith
    · have h2 : (1 : ℚ) / 2 ^ c < 1 := by
        rw [div_lt_one hp]; exact one_lt_pow₀ (by norm_num) hc0
      rw [if_neg (fun h => hc0 h.2)]
      refine trunc_floor ?_ ?_ ?_ (by omega) <;> push_cast <;> linarith
  · rw [if_pos rfl]
    refine trunc_floor ?_ ?_ ?_ (by omega) <;> push_cast <;> rw [neg_div] <;> linarith

/-- One lovelace is lost: `2^k` is the largest power of two in the amount `x`; `x / 2^k` is at least 1000000 / 2^19 (about 1.907), and
the remainder of `x * 2^(71-k)` modulo 1000000 lies strictly between 2^18 and 500000. -/
def LosesOne (k x : ℕ) : Prop :=
  1000000 * 2 ^ k ≤ 2 ^ 19 * x ∧ 2 ^ 18 < x * 2 ^ (71 - k) % 1000000 ∧ x * 2 ^ (71 - k) % 1000000 < 500000

instance (k x : ℕ) : Decidable (LosesOne k x) := by unfold LosesOne; infer_instance

/-- One place of the `double` (the same as one lovelace only if `k = 52`) is lost or gained. -/
theorem places (x k c t : ℕ) (hc : k + c = 52) (ht : t = 19 ∨ t = 20) (h0 : 2 ^ k ≤ x) (hx : x < 2 ^ (k + 1))
    (h1 : 1000000 * 2 ^ k ≤ 2 ^ t * x) (h2 : 2 ^ t * x < 1000000 * 2 ^ (k + 1)) (r : ℕ) (hr : x * 2 ^ (t + c) % 1000000 = r)
    (m : ℤ) (hm : m = if t = 20 then 0 else if r < 500000 then
        (if 2 ^ 18 < r then -1 else if r = 2 ^ 18 ∧ c = 0 ∧ x % 2 = 1 then -1 else 0)
      else (if r < 737856 then 1 else if r = 737856 ∧ c = 0 ∧ x % 2 = 1 then 1 else 0)) :
    ada2love (.fin (love2ada x)) = .ok (if m = -1 then (x : ℤ) - 1 else if m = 1 ∧ c = 0 then (x : ℤ) + 1 else x) := by
  obtain ⟨hne, hp⟩ := product_exact x k c t hc (by omega) hx h1 h2 (by omega)
  rw [hr] at hne hp
  have hr6 : r < 1000000 := by rw [← hr]; exact Nat.mod_lt _ (by norm_num)
  have hX1 : (2 ^ 52 : ℕ) ≤ x * 2 ^ c := by rw [← hc, pow_add]; exact Nat.mul_le_mul_right _ h0
  have hX2 : x * 2 ^ c + 1 ≤ 2 ^ 53 := by
    have : x + 1 ≤ 2 ^ (k + 1) := hx
    have h3 := Nat.mul_le_mul_right (2 ^ c) this
    rw [← pow_add, show k + 1 + c = 53 by omega, Nat.add_mul, Nat.one_mul] at h3
    have : 1 ≤ 2 ^ c := Nat.one_le_two_pow
    omega
  have hxpos : 0 < x := lt_of_lt_of_le (by positivity) h0
  have hx53 : x < 2 ^ 53 := lt_of_lt_of_le hx (Nat.pow_le_pow_right (by norm_num) (by omega))
  have hpar : 0 < c → (x * 2 ^ c) % 2 = 0 := by
    intro hc0
    obtain ⟨d, rfl⟩ := Nat.exists_eq_succ_of_ne_zero hc0.ne'
    rw [Nat.pow_succ, ← Nat.mul_assoc]; omega
  have hrQ : (r : ℚ) < 1000000 := by exact_mod_cast hr6
  have hr0 : (0 : ℚ) ≤ r := by positivity
  unfold ada2love
  dsimp only
  rw [hp]
  generalize hη : (((if 500000 < r then 1000000 else 0 : ℕ) : ℚ) - (r : ℕ)) / 2 ^ t = η
  -- the rounding of the shifted product
  have key : (2 : ℚ) ^ 52 ≤ ((x * 2 ^ c : ℕ) : ℚ) + η → η < 1 →
      rne (((x * 2 ^ c : ℕ) : ℤ) + η) = ((x * 2 ^ c : ℕ) : ℤ) + m →
      (m = 0 ∨ m = 1 ∨ m = -1) →
      truncI64 (fl ((((x * 2 ^ c : ℕ) : ℚ) + η) / 2 ^ c)) =
        .ok (if m = -1 then (x : ℤ) - 1 else if m = 1 ∧ c = 0 then (x : ℤ) + 1 else x) := by
    intro g1 g2 g3 g4
    have hX2q : ((x * 2 ^ c : ℕ) : ℚ) + 1 ≤ 2 ^ 53 := by exact_mod_cast hX2
    rw [fl_scaled c (by omega) _ g1 (by linarith)]
    rw [show ((x * 2 ^ c : ℕ) : ℚ) = (((x * 2 ^ c : ℕ) : ℤ) : ℚ) by push_cast; rfl, g3]
    exact trunc_at x c hx53 m g4 hxpos
  have hm3 : m = 0 ∨ m = 1 ∨ m = -1 := by rw [hm]; split_ifs <;> simp
  have hX1q : (2 : ℚ) ^ 52 ≤ ((x * 2 ^ c : ℕ) : ℚ) := by exact_mod_cast hX1
  rcases ht with rfl | rfl
  · -- the quotient is at least 1000000 / 2^19
    have hbig : (2 ^ 52 + 1 : ℕ) ≤ x * 2 ^ c := by
      have := Nat.mul_le_mul_right (2 ^ c) h1
      rw [Nat.mul_assoc, ← pow_add, hc, Nat.mul_assoc] at this
      omega
    have hbigq : (2 : ℚ) ^ 52 + 1 ≤ ((x * 2 ^ c : ℕ) : ℚ) := by exact_mod_cast hbig
    have hpar' : ¬ (c = 0 ∧ x % 2 = 1) ↔ ((x * 2 ^ c : ℕ) : ℤ) % 2 = 0 := by
      rcases Nat.eq_zero_or_pos c with rfl | hc0
      · simp; omega
      · have := hpar hc0
        constructor
        · intro _; exact_mod_cast this
        · rintro - ⟨h, -⟩; omega
    rw [if_neg (by decide)] at hm
    by_cases hlt : r < 500000
    · rw [if_pos hlt] at hm
      rw [if_neg (by omega)] at hη
      have hlq : (r : ℚ) < 500000 := by exact_mod_cast hlt
      have hη1 : -1 < η := by rw [← hη, lt_div_iff₀ (by norm_num)]; push_cast; norm_num; linarith
      have hη0 : η ≤ 0 := by rw [← hη, div_le_iff₀ (by norm_num)]; push_cast; linarith
      refine key (by linarith) (by linarith) ?_ hm3
      rcases Nat.lt_trichotomy r (2 ^ 18) with hs | hs | hs
      · rw [if_neg (by omega), if_neg (by omega)] at hm
        have : (r : ℚ) < 2 ^ 18 := by exact_mod_cast hs
        rw [hm, rne_same (by rw [← hη, lt_div_iff₀ (by norm_num)]; push_cast; norm_num at this ⊢; linarith) (by linarith)]; simp
      · rw [if_neg (by omega)] at hm
        have hh : η = -(1 / 2) := by rw [← hη, hs]; norm_num
        rw [rne_tie (.inr hh), hh, hm]
        by_cases hp2 : c = 0 ∧ x % 2 = 1
        · rw [if_neg (fun h => hpar'.mpr h hp2), if_neg (by norm_num), if_pos ⟨hs, hp2⟩]; ring
        · rw [if_pos (hpar'.mp hp2), if_neg (fun h => hp2 h.2)]; simp
      · rw [if_pos hs] at hm
        have : (2 : ℚ) ^ 18 < r := by exact_mod_cast hs
        rw [hm, rne_down hη1 (by rw [← hη, div_lt_iff₀ (by norm_num)]; push_cast; norm_num at this ⊢; linarith)]; ring
    · rw [if_neg hlt] at hm
      rw [if_pos (by omega)] at hη
      have hlq : (500000 : ℚ) < r := by exact_mod_cast (by omega : 500000 < r)
      have hη1 : η < 1 := by rw [← hη, div_lt_iff₀ (by norm_num)]; push_cast; norm_num; linarith
      have hη0 : 0 ≤ η := by rw [← hη]; apply div_nonneg _ (by norm_num); push_cast; linarith
      refine key (by linarith) hη1 ?_ hm3
      rcases Nat.lt_trichotomy r 737856 with hs | hs | hs
      · rw [if_pos hs] at hm
        have : (r : ℚ) < 737856 := by exact_mod_cast hs
        rw [hm, rne_up (by rw [← hη, lt_div_iff₀ (by norm_num)]; push_cast; norm_num; linarith) hη1]
      · rw [if_neg (by omega)] at hm
        have hh : η = 1 / 2 := by rw [← hη, hs]; norm_num
        rw [rne_tie (.inl hh), hh, hm]
        by_cases hp2 : c = 0 ∧ x % 2 = 1
        · rw [if_neg (fun h => hpar'.mpr h hp2), if_pos rfl, if_pos ⟨hs, hp2⟩]
        · rw [if_pos (hpar'.mp hp2), if_neg (fun h => hp2 h.2)]; simp
      · rw [if_neg (by omega), if_neg (by omega)] at hm
        have : (737856 : ℚ) < r := by exact_mod_cast hs
        rw [hm, rne_same (by linarith) (by rw [← hη, div_lt_iff₀ (by norm_num)]; push_cast; norm_num; linarith)]; simp
  · -- the error is less than half a place
    rw [if_pos rfl] at hm
    subst hm
    have hlo : -(1 / 2) < η := by
      rw [← hη, lt_div_iff₀ (by norm_num)]
      split
      · push_cast; norm_num; linarith
      · have : (r : ℚ) < 500000 := by exact_mod_cast (by omega : r < 500000)
        push_cast; norm_num; linarith
    have hhi : η < 1 / 2 := by
      rw [← hη, div_lt_iff₀ (by norm_num)]
      split
      · have : (500000 : ℚ) < r := by exact_mod_cast (by omega : 500000 < r)
        push_cast; norm_num; linarith
      · push_cast; norm_num; linarith
    by_cases hg : (2 : ℚ) ^ 52 ≤ ((x * 2 ^ c : ℕ) : ℚ) + η
    · exact key hg (by linarith) (by rw [rne_same hlo hhi]; simp) hm3
    · -- only powers of two
      have hXe : x * 2 ^ c = 2 ^ 52 := by
        by_contra hcon
        have : 2 ^ 52 + 1 ≤ x * 2 ^ c := by omega
        have : (2 : ℚ) ^ 52 + 1 ≤ ((x * 2 ^ c : ℕ) : ℚ) := by exact_mod_cast this
        exact hg (by linarith)
      have hr2 : r = 213696 := by
        rw [← hr, show x * 2 ^ (20 + c) = x * 2 ^ c * 2 ^ 20 by rw [pow_add]; ring, hXe]; norm_num
      have hηv : η = -(213696 / 2 ^ 20) := by rw [← hη, hr2]; norm_num
      rw [hXe]
      have e2 : (((2 ^ 52 : ℕ) : ℚ) + η) / 2 ^ c = (((2 ^ 53 : ℕ) : ℤ) + 2 * η) / 2 ^ (c + 1) := by
        rw [pow_succ]; push_cast; field_simp; ring
      rw [e2, fl_scaled (c + 1) (by omega) _ (by rw [hηv]; norm_num) (by rw [hηv]; norm_num),
        rne_same (by rw [hηv]; norm_num) (by rw [hηv]; norm_num)]
      have e3 : (((2 ^ 53 : ℕ) : ℤ) : ℚ) / 2 ^ (c + 1) = ((((x * 2 ^ c : ℕ) : ℤ) + 0 : ℤ) : ℚ) / 2 ^ c := by
        rw [hXe]; push_cast; rw [div_eq_div_iff (by positivity) (by positivity), pow_succ]; ring
      rw [e3]
      exact trunc_at x c hx53 0 (.inl rfl) hxpos

/-- **C80** (exactly, below 2^52) An amount of lovelace with highest bit `k` comes back from ADA one lovelace short if and only if
`LosesOne`; every other amount comes back exactly. -/
theorem C80_exact (x k : ℕ) (h0 : 2 ^ k ≤ x) (hx : x < 2 ^ (k + 1)) (hk : k < 52) :
    ada2love (.fin (love2ada x)) = .ok (if LosesOne k x then (x : ℤ) - 1 else x) := by
  have e : 71 - k = 19 + (52 - k) := by omega
  have hc : ¬ (52 - k = 0) := by omega
  by_cases hA : 1000000 * 2 ^ k ≤ 2 ^ 19 * x
  · have hp := places x k (52 - k) 19 (by omega) (.inl rfl) h0 hx hA (by rw [pow_succ] at hx ⊢; omega) _ rfl
    have hL : LosesOne k x ↔ 2 ^ 18 < x * 2 ^ (19 + (52 - k)) % 1000000 ∧ x * 2 ^ (19 + (52 - k)) % 1000000 < 500000 := by
      unfold LosesOne; rw [e]; exact and_iff_right hA
    simp only [hL]
    generalize x * 2 ^ (19 + (52 - k)) % 1000000 = r at *
    by_cases h1 : r < 500000
    · by_cases h2 : 2 ^ 18 < r
      · rw [hp (-1) (by rw [if_neg (by decide), if_pos h1, if_pos h2]), if_pos rfl, if_pos ⟨h2, h1⟩]
      · rw [hp 0 (by rw [if_neg (by decide), if_pos h1, if_neg h2, if_neg (fun h => hc h.2.1)]), if_neg (by decide),
          if_neg (fun h => hc h.2), if_neg (fun h => h2 h.1)]
    · by_cases h2 : r < 737856
      · rw [hp 1 (by rw [if_neg (by decide), if_neg h1, if_pos h2]), if_neg (by decide), if_neg (fun h => hc h.2),
          if_neg (fun h => h1 h.2)]
      · rw [hp 0 (by rw [if_neg (by decide), if_neg h1, if_neg h2, if_neg (fun h => hc h.2.1)]), if_neg (by decide),
          if_neg (fun h => hc h.2), if_neg (fun h => h1 h.2)]
  · rw [places x k (52 - k) 20 (by omega) (.inr rfl) h0 hx (by rw [pow_succ] at hx; omega) (by rw [pow_succ] at hx ⊢; omega) _ rfl 0
      (by rw [if_pos rfl]), if_neg (by decide), if_neg (fun h => hc h.2), if_neg (fun h => hA h.1)]

/-- **C80** (exactly, from 2^52 to 2^53) Below 8589934592 ADA every amount comes back exactly; above, the remainder of `x * 2^19`
modulo 1000000 decides whether a lovelace is lost or gained (on the two boundary values: for odd amounts only). -/
theorem C80_exact_top (x : ℕ) (h0 : 2 ^ 52 ≤ x) (hx : x < 2 ^ 53) (r : ℕ) (hr : x * 2 ^ 19 % 1000000 = r) :
    ada2love (.fin (love2ada x)) = .ok (
      if x < 8589934592 * 1000000 then (x : ℤ)
      else if (2 ^ 18 < r ∧ r < 500000) ∨ (r = 2 ^ 18 ∧ x % 2 = 1) then x - 1
      else if (500000 < r ∧ r < 737856) ∨ (r = 737856 ∧ x % 2 = 1) then x + 1
      else x) := by
  by_cases hA : 1000000 * 2 ^ 52 ≤ 2 ^ 19 * x
  · have hne : x * 2 ^ (19 + 0) % 1000000 ≠ 500000 :=
      (product_exact x 52 0 19 (by omega) (by omega) hx hA (by omega) (by omega)).1
    have hp := places x 52 0 19 (by omega) (.inl rfl) h0 hx hA (by omega) r hr
    rw [Nat.add_zero, hr] at hne
    rw [if_neg (show ¬ x < 8589934592 * 1000000 by omega)]
    clear hr
    by_cases h1 : r < 500000
    · rw [if_neg (by decide), if_pos h1] at hp
      by_cases h2 : 2 ^ 18 < r
      · rw [hp (-1) (by rw [if_pos h2]), if_pos rfl, if_pos (.inl ⟨h2, h1⟩)]
      · rw [if_neg h2] at hp
        by_cases h3 : r = 2 ^ 18 ∧ x % 2 = 1
        · rw [hp (-1) (by rw [if_pos ⟨h3.1, rfl, h3.2⟩]), if_pos rfl, if_pos (.inr h3)]
        · rw [hp 0 (by rw [if_neg (fun h => h3 ⟨h.1, h.2.2⟩)]), if_neg (by decide), if_neg (fun h => by simp at h), if_neg, if_neg]
          · rintro (h | h) <;> omega
          · rintro (h | h)
            · exact h2 h.1
            · exact h3 h
    · rw [if_neg (by decide), if_neg h1] at hp
      by_cases h2 : r < 737856
      · rw [hp 1 (by rw [if_pos h2]), if_neg (by decide), if_pos ⟨rfl, rfl⟩, if_neg, if_pos (.inl ⟨by omega, h2⟩)]
        rintro (h | h)
        · exact h1 h.2
        · omega
      · rw [if_neg h2] at hp
        by_cases h3 : r = 737856 ∧ x % 2 = 1
        · rw [hp 1 (by rw [if_pos ⟨h3.1, rfl, h3.2⟩]), if_neg (by decide), if_pos ⟨rfl, rfl⟩, if_neg, if_pos (.inr h3)]
          rintro (h | h)
          · exact h1 h.2
          · omega
        · rw [hp 0 (by rw [if_neg (fun h => h3 ⟨h.1, h.2.2⟩)]), if_neg (by decide), if_neg (fun h => by simp at h), if_neg, if_neg]
          · rintro (h | h)
            · exact h2 h.2
            · exact h3 h
          · rintro (h | h)
            · exact h1 h.2
            · omega
  · rw [places x 52 0 20 (by omega) (.inr rfl) h0 hx (by omega) (by omega) _ rfl 0 (by rw [if_pos rfl])]
    rw [if_neg (by decide), if_neg (by simp), if_pos (by omega)]

/-- Concrete cases: 249 lovelace lose one, 250 do not; the smallest amount that loses one is 249. -/
example : LosesOne 7 249 ∧ ¬ LosesOne 7 250 := by decide
example : ∀ x < 249, ¬ LosesOne (Nat.log2 x) x := by decide +kernel
example : ada2love (.fin (love2ada (249 : ℕ))) = .ok 248 := C80_exact 249 7 (by decide) (by decide) (by decide)
/-- And amounts near the top that lose one and that gain one. -/
example : ada2love (.fin (love2ada (8589934592000001 : ℕ))) = .ok 8589934592000002 :=
  (C80_exact_top 8589934592000001 (by norm_num) (by norm_num) _ rfl).trans (by norm_num)

end Cardano.Ada
