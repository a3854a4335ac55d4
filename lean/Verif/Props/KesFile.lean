import Verif.Props.KeyFiles

/-! # C72, KES signing keys rebuilt from their files: what further updates do

`Props/KeyFiles.lean` shows that the file of a KES key leaves the period out.  Here the
consequence is settled for every period and every number of later updates: a key saved in
period `t = 2^j·(odd)` and rebuilt from its file follows the original exactly for the next
`2^j - 1` updates, and the `2^j`-th update — which succeeds — replaces its signing seed by one
grown from 32 zero bytes, a constant everybody knows. -/

namespace Cardano.Pool
open Util Cardano.Kes

/-- As long as the update stays below the lowest set bit of the true period, the wrong period
does not matter. -/
theorem updateBuffer_low (C : SigHash) (j : Nat) : ∀ (d : Nat) (s : Bytes) (t c : Nat) (rest : Bytes), d < 32 →
    s.length = 32 → j ≤ d → t < 2 ^ d → 2 ^ j ∣ t → c + 1 < 2 ^ j →
    updateBuffer C d (layout C d s (t + c) ++ rest) c = (layout C d s (t + c + 1) ++ rest, .ok ()) := by
  intro d
  induction d with
  | zero =>
    intro s t c rest _ _ hj _ _ hc
    have : j = 0 := by omega
    subst this
    simp at hc
  | succ d ih =>
    intro s t c rest hd hs hj ht hdv hc
    by_cases hjd : j = d + 1
    · subst hjd
      have : t = 0 := Nat.eq_zero_of_dvd_of_lt hdv ht
      subst this
      rw [Nat.zero_add]
      exact updateBuffer_ok C (d + 1) s c rest hd hs hc
    · have hj' : j ≤ d := by omega
      have hle : 2 ^ j ≤ 2 ^ d := Nat.pow_le_pow_right (by omega) hj'
      have h32 : 2 ^ (d + 1) ≤ 2 ^ 32 := Nat.pow_le_pow_right (by omega) (by omega)
      have hpow : 2 ^ (d + 1) = 2 ^ d + 2 ^ d := by rw [Nat.pow_succ]; omega
      have hmod : (c + 1) % 2 ^ 32 = c + 1 := Nat.mod_eq_of_lt (by omega)
      have hdd : 2 ^ j ∣ 2 ^ d := Nat.pow_dvd_pow 2 hj'
      have hL := splitLeft_length C s
      have hR := splitRight_length C s
      rw [updateBuffer]
      simp only [hmod, total]
      rw [if_neg (by omega), if_pos (by omega)]
      by_cases h1 : t < 2 ^ d
      · have h2 : t + c + 1 < 2 ^ d := by
          obtain ⟨x, rfl⟩ := hdv
          obtain ⟨y, hy⟩ := hdd
          rw [hy] at h1 ⊢
          have hxy : x < y := Nat.lt_of_mul_lt_mul_left h1
          have : 2 ^ j * (x + 1) ≤ 2 ^ j * y := Nat.mul_le_mul_left _ hxy
          rw [Nat.mul_add] at this
          omega
        have hl := layout_length C d (splitLeft C s) (t + c) hL
        rw [layout, if_pos (by omega), List.append_assoc, first_append _ hl.symm]
        simp only
        have := ih (splitLeft C s) t c [] (by omega) hL hj' h1 hdv hc
        simp only [List.append_nil] at this
        rw [this, List.drop_left' hl]
        simp only
        rw [layout, if_pos h2]
        simp only [List.append_assoc]
      · have hl := layout_length C d (splitRight C s) (t + c - 2 ^ d) hR
        rw [layout, if_neg (by omega), List.append_assoc, first_append _ hl.symm]
        simp only
        have e1 : t + c - 2 ^ d = t - 2 ^ d + c := by omega
        have e2 : t + c + 1 - 2 ^ d = t - 2 ^ d + c + 1 := by omega
        have := ih (splitRight C s) (t - 2 ^ d) c [] (by omega) hR hj' (by omega) (Nat.dvd_sub hdv hdd) hc
        simp only [List.append_nil] at this
        rw [← e1] at this
        rw [this, List.drop_left' hl]
        simp only
        rw [layout, if_neg (by omega), e2, ← e1]
        simp only [List.append_assoc]

/-- At the lowest set bit of the true period the seed that is used has been erased. -/
theorem updateBuffer_zero_seed (C : SigHash) (j : Nat) : ∀ (d : Nat) (s : Bytes) (t c : Nat) (rest : Bytes), d < 32 →
    s.length = 32 → j < d → t < 2 ^ d → t % 2 ^ (j + 1) = 2 ^ j → c + 1 = 2 ^ j →
    ∃ tail, tail.length + keySize j = keySize d ∧
      updateBuffer C d (layout C d s (t + c) ++ rest) c = (layout C j zeros32 0 ++ (tail ++ rest), .ok ()) := by
  intro d
  induction d with
  | zero => intro s t c rest _ _ hj; omega
  | succ d ih =>
    intro s t c rest hd hs hj ht hb hc
    have h32 : 2 ^ (d + 1) ≤ 2 ^ 32 := Nat.pow_le_pow_right (by omega) (by omega)
    have hpow : 2 ^ (d + 1) = 2 ^ d + 2 ^ d := by rw [Nat.pow_succ]; omega
    have hpos : 0 < 2 ^ d := Nat.pow_pos (by omega)
    have hz : zeros32.length = 32 := by decide
    have hL := splitLeft_length C s
    have hR := splitRight_length C s
    by_cases hjd : j = d
    · subst hjd
      have hmod : (c + 1) % 2 ^ 32 = c + 1 := Nat.mod_eq_of_lt (by omega)
      rw [Nat.mod_eq_of_lt ht] at hb
      rw [updateBuffer]
      simp only [hmod, total]
      rw [if_neg (by omega), if_neg (by omega), if_pos hc]
      have hl := layout_length C j (splitRight C s) (t + c - 2 ^ j) hR
      rw [layout_next, if_neg (by omega), List.append_assoc, first_append (keySize j + 32) (by simp [hl, hz])]
      simp only
      rw [(kbSpec C j).2 _ _ hl hz]
      simp only
      rw [List.drop_left' (by simp [hl, hz])]
      refine ⟨zeros32 ++ (KesSpec.treeKey C j (splitLeft C s) ++ KesSpec.treeKey C j (splitRight C s)), ?_, ?_⟩
      · simp only [List.length_append, hz, treeKey_length, keySize_succ]; omega
      · simp
    · have hj' : j < d := by omega
      have hle : 2 ^ (j + 1) ≤ 2 ^ d := Nat.pow_le_pow_right (by omega) hj'
      have hjp : 2 ^ (j + 1) = 2 ^ j + 2 ^ j := by rw [Nat.pow_succ]; omega
      have hjpos : 0 < 2 ^ j := Nat.pow_pos (by omega)
      have hmod : (c + 1) % 2 ^ 32 = c + 1 := Nat.mod_eq_of_lt (by omega)
      obtain ⟨y, hy⟩ : 2 ^ (j + 1) ∣ 2 ^ d := Nat.pow_dvd_pow 2 hj'
      rw [updateBuffer]
      simp only [hmod, total]
      rw [if_neg (by omega), if_pos (by omega)]
      by_cases h1 : t < 2 ^ d
      · have h2 : t + c < 2 ^ d := by
          have hd1 := Nat.div_add_mod t (2 ^ (j + 1))
          rw [hb] at hd1
          have hx : t / 2 ^ (j + 1) < y := by
            refine Nat.div_lt_of_lt_mul ?_
            rw [← hy]; exact h1
          have : 2 ^ (j + 1) * (t / 2 ^ (j + 1) + 1) ≤ 2 ^ (j + 1) * y := Nat.mul_le_mul_left _ hx
          rw [Nat.mul_add, ← hy] at this
          omega
        have hl := layout_length C d (splitLeft C s) (t + c) hL
        rw [layout, if_pos (by omega), List.append_assoc, first_append _ hl.symm]
        simp only
        obtain ⟨tail, h3, h4⟩ := ih (splitLeft C s) t c [] (by omega) hL hj' h1 hb hc
        simp only [List.append_nil] at h4
        rw [h4, List.drop_left' hl]
        refine ⟨tail ++ (splitRight C s ++ (KesSpec.treeKey C d (splitLeft C s) ++ KesSpec.treeKey C d (splitRight C s))), ?_, ?_⟩
        · simp only [List.length_append, hR, treeKey_length, keySize_succ]; omega
        · simp
      · have hl := layout_length C d (splitRight C s) (t + c - 2 ^ d) hR
        rw [layout, if_neg (by omega), List.append_assoc, first_append _ hl.symm]
        simp only
        have e1 : t + c - 2 ^ d = t - 2 ^ d + c := by omega
        have hb' : (t - 2 ^ d) % 2 ^ (j + 1) = 2 ^ j := by
          have : t = (t - 2 ^ d) + 2 ^ (j + 1) * y := by omega
          rw [this, Nat.add_mul_mod_self_left] at hb
          exact hb
        obtain ⟨tail, h3, h4⟩ := ih (splitRight C s) (t - 2 ^ d) c [] (by omega) hR hj' (by omega) hb' hc
        simp only [List.append_nil] at h4
        rw [← e1] at h4
        rw [h4, List.drop_left' hl]
        refine ⟨tail ++ (zeros32 ++ (KesSpec.treeKey C d (splitLeft C s) ++ KesSpec.treeKey C d (splitRight C s))), ?_, ?_⟩
        · simp only [List.length_append, hz, treeKey_length, keySize_succ]; omega
        · simp

/-- The first 32 bytes of a fresh key are the seed of the leftmost leaf. -/
theorem layout_front (C : SigHash) : ∀ (j : Nat) (s : Bytes), s.length = 32 →
    ∃ rest, layout C j s 0 = KesSpec.seedAt C s (List.replicate j false) ++ rest ∧
      (KesSpec.seedAt C s (List.replicate j false)).length = 32 := by
  intro j
  induction j with
  | zero => intro s h; exact ⟨[], by simp [layout, KesSpec.seedAt], h⟩
  | succ j ih =>
    intro s _
    obtain ⟨rest, h1, h2⟩ := ih (splitLeft C s) (splitLeft_length C s)
    rw [layout, if_pos (Nat.pow_pos (by omega)), h1]
    exact ⟨rest ++ (splitRight C s ++ (KesSpec.treeKey C j (splitLeft C s) ++ KesSpec.treeKey C j (splitRight C s))),
      by simp only [List.append_assoc]; rfl, h2⟩

/-- One `update()` whose buffer step succeeds. -/
theorem update_step (C : SigHash) (d m p : Nat) (b b' : Bytes) (hb : b.length = keySize (d + 1)) (hb' : b'.length = keySize (d + 1))
    (hm : m < 2 ^ 32) (h : updateBuffer C (d + 1) (b ++ packBE 4 m) m = (b' ++ packBE 4 m, .ok ())) :
    Kes.update C (d + 1) ⟨b ++ packBE 4 m, p⟩ = (⟨b' ++ packBE 4 (m + 1), (m + 1) % 2 ^ 32⟩, .ok ()) := by
  have hper : Kes.period (d + 1) ⟨b ++ packBE 4 m, p⟩ = m := by
    unfold Kes.period
    simp only
    rw [List.drop_left' hb]
    exact unpackBE_packBE 4 m hm
  unfold Kes.update
  simp only [hper, h, List.take_left' hb']

/-- The rebuilt key after `m < 2^j` updates. -/
theorem updates_low (C : SigHash) (d j : Nat) (s : Bytes) (t : Nat) (hd : d + 1 < 32) (hs : s.length = 32) (hj : j ≤ d + 1)
    (ht : t < 2 ^ (d + 1)) (hdv : 2 ^ j ∣ t) : ∀ m, m < 2 ^ j →
    updates C (d + 1) m ⟨layout C (d + 1) s t ++ packBE 4 0, 0⟩ = .ok ⟨layout C (d + 1) s (t + m) ++ packBE 4 m, m⟩ := by
  have hj32 : 2 ^ j < 2 ^ 32 := Nat.pow_lt_pow_right (by omega) (by omega)
  intro m
  induction m with
  | zero => intro _; rfl
  | succ m ih =>
    intro hm
    rw [updates, ih (by omega)]
    simp only [Out.ok_bind]
    rw [update_step C d m m _ (layout C (d + 1) s (t + (m + 1))) (layout_length C _ s _ hs) (layout_length C _ s _ hs) (by omega)
      (updateBuffer_low C j (d + 1) s t m _ hd hs hj ht hdv hm)]
    simp only
    rw [Nat.mod_eq_of_lt (by omega : m + 1 < 2 ^ 32)]

/-- **C72, KES signing keys (exactly how far a rebuilt key can be used).** Generate a KES key,
update it to period `t ≠ 0`, save it and rebuild it from the file.  Let `2^j` be the largest
power of two dividing `t`.  Then for every `m < 2^j`, updating the rebuilt key `m` times works
and it signs as the original does after as many updates — although it calls its period `m`
where the original is in `t + m`.  The `2^j`-th update also works, and from then on the key
signs with the seed of the first leaf of the tree grown from 32 zero bytes, whatever the
secret seed was. -/
theorem C72_kes_reloaded_updates (C : SigHash) (seed : Bytes) (hs : seed.length = 32) (t j : Nat) (ht : t < 64)
    (hj : t % 2 ^ (j + 1) = 2 ^ j) :
    ∃ k0 pk wiped k r, Kes.keygen C 6 seed = .ok (k0, pk, wiped) ∧ updates C 6 t k0 = .ok k ∧
      Kes.fromBytes 6 (k.prv.take 608) = .ok r ∧
      (∀ m, m < 2 ^ j → ∃ km rm, updates C 6 (t + m) k0 = .ok km ∧ updates C 6 m r = .ok rm ∧
        rm.prv.take 608 = km.prv.take 608 ∧ Kes.period 6 km = t + m ∧ Kes.period 6 rm = m ∧
        ∀ msg, Kes.sign C 6 rm msg = Kes.sign C 6 km msg) ∧
      ∃ r', updates C 6 (2 ^ j) r = .ok r' ∧ ∀ msg, ∃ sig, Kes.sign C 6 r' msg = .ok sig ∧
        sig.take 64 = C.sign (KesSpec.seedAt C (List.replicate 32 0) (List.replicate j false)) msg := by
  obtain ⟨k0, pk, w, k, h1, h2, h3, h4, h5, h6⟩ := kes_file C seed hs t ht
  have hjpos : 0 < 2 ^ j := Nat.pow_pos (by omega)
  have hjt : 2 ^ j ≤ t := by rw [← hj]; exact Nat.mod_le _ _
  have hj6 : j < 6 := by
    rcases Nat.lt_or_ge j 6 with h | h
    · exact h
    · have : 2 ^ 6 ≤ 2 ^ j := Nat.pow_le_pow_right (by omega) h
      omega
  have hdv : 2 ^ j ∣ t := by
    have hd1 := Nat.div_add_mod t (2 ^ (j + 1))
    rw [hj, Nat.pow_succ] at hd1
    exact ⟨2 * (t / (2 ^ j * 2)) + 1, by rw [Nat.mul_add, ← Nat.mul_assoc]; omega⟩
  have hroom : t + 2 ^ j ≤ 64 := by
    obtain ⟨x, rfl⟩ := hdv
    have e : (64 : Nat) = 2 ^ j * 2 ^ (6 - j) := by
      rw [← Nat.pow_add, show j + (6 - j) = 6 by omega]
    rw [e] at ht
    have := Nat.lt_of_mul_lt_mul_left ht
    have := Nat.mul_le_mul_left (2 ^ j) this
    rw [← e, Nat.succ_eq_add_one, Nat.mul_add] at this
    omega
  have hk0 : k0 = ⟨layout C 6 seed 0 ++ packBE 4 0, 0⟩ := by
    rw [keygen_ok C 6 seed hs] at h1
    simp only [Out.ok.injEq, Prod.mk.injEq] at h1
    exact h1.1.symm
  have hks : keySize 6 = 608 := by decide
  have low := updates_low C 5 j seed t (by omega) hs (by omega) ht hdv
  refine ⟨k0, pk, w, k, _, h1, h2, h6, ?_, ?_⟩
  · intro m hm
    refine ⟨keyAt C 6 seed (t + m), _, ?_, low m hm, ?_, ?_, ?_, ?_⟩
    · rw [hk0]; exact updates_keyAt C 6 seed (by omega) hs (t + m) (by omega)
    · have hl := layout_length C 6 seed (t + m) hs
      show (layout C 6 seed (t + m) ++ packBE 4 m).take 608 = (layout C 6 seed (t + m) ++ packBE 4 (t + m)).take 608
      rw [List.take_left' (by rw [hl, hks]), List.take_left' (by rw [hl, hks])]
    · exact period_keyAt C 6 seed (t + m) _ hs (by omega) (by omega)
    · unfold Kes.period
      simp only
      rw [List.drop_left' (layout_length C 6 seed (t + m) hs)]
      exact unpackBE_packBE 4 m (by omega)
    · intro msg
      rw [sign_any_tail C seed hs]
      exact (sign_any_tail C seed hs (t + m) _ _ msg).symm
  · obtain ⟨c, hc⟩ : ∃ c, 2 ^ j = c + 1 := ⟨2 ^ j - 1, by omega⟩
    obtain ⟨tail, hta, hub⟩ := updateBuffer_zero_seed C j 6 seed t c (packBE 4 c) (by omega) hs hj6 ht hj hc.symm
    have hz : zeros32.length = 32 := by decide
    have hlz := layout_length C j zeros32 0 hz
    have hlen : (layout C j zeros32 0 ++ tail).length = keySize 6 := by rw [List.length_append, hlz]; omega
    obtain ⟨rest, hf1, hf2⟩ := layout_front C j zeros32 hz
    refine ⟨⟨layout C j zeros32 0 ++ tail ++ packBE 4 (c + 1), (c + 1) % 2 ^ 32⟩, ?_, ?_⟩
    · rw [hc, updates, low c (by omega)]
      simp only [Out.ok_bind]
      rw [update_step C 5 c c _ (layout C j zeros32 0 ++ tail) (layout_length C 6 seed _ hs) hlen (by omega)
        (by rw [hub, List.append_assoc])]
    · intro msg
      have hlen2 := hlen
      rw [hf1, List.length_append, List.length_append, hf2] at hlen2
      obtain ⟨sig, g1, g2⟩ := sign_front C 6 (KesSpec.seedAt C zeros32 (List.replicate j false)) (rest ++ tail ++ packBE 4 (c + 1)) msg hf2
        (by omega) (by simp only [List.length_append]; omega)
      refine ⟨sig, ?_, g2⟩
      rw [← g1]
      unfold Kes.sign
      simp only [hf1, List.append_assoc]

/-- The hypotheses are met: period 40 = 8·5. -/
example : ∃ seed : Bytes, seed.length = 32 ∧ (40 : Nat) < 64 ∧ 40 % 2 ^ (3 + 1) = 2 ^ 3 := ⟨List.replicate 32 7, by decide⟩

/-- Every period but the first is covered. -/
theorem C72_kes_every_period (t : Nat) (ht : t ≠ 0) : ∃ j, t % 2 ^ (j + 1) = 2 ^ j := by
  induction t using Nat.strongRecOn with
  | ind t ih =>
    rcases Nat.mod_two_eq_zero_or_one t with h | h
    · obtain ⟨j, hj⟩ := ih (t / 2) (by omega) (by omega)
      refine ⟨j + 1, ?_⟩
      have e : t = 2 * (t / 2) := by omega
      rw [e, Nat.pow_succ 2 (j + 1), Nat.mul_comm (2 ^ (j + 1)) 2, Nat.mul_mod_mul_left, hj, Nat.pow_succ]
      omega
    · exact ⟨0, by simpa using h⟩

end Cardano.Pool
