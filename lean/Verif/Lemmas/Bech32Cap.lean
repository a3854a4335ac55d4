import Verif.Lemmas.Bech32Dist

/-! # No three (four) columns of the Bech32 parity check are dependent -/

namespace Cardano.Bech32

/-- One step with a zero symbol. -/
def T (c : Nat) : Nat := polymodStep c 0

/-- The contribution of symbol 1 at distance `i` from the end. -/
def col : Nat → Nat
  | 0 => 1
  | i + 1 => T (col i)

theorem T_lt {c : Nat} (h : c < 2 ^ 30) : T c < 2 ^ 30 := step_lt h (by decide)

theorem col_lt : ∀ i, col i < 2 ^ 30
  | 0 => by decide
  | i + 1 => T_lt (col_lt i)

theorem lin_T : Lin 30 T := by
  intro x y hx hy
  have := step_xor (u := 0) (v := 0) hx hy
  rwa [Nat.xor_self] at this

theorem T_smul {a c : Nat} (ha : a < 32) (h : c < 2 ^ 30) : T (smul a c) = smul a (T c) := by
  refine lin_ext 30 (f := fun c => T (smul a c)) (g := fun c => smul a (T c))
    (fun x y hx hy => by simp only [smul_xor, lin_T _ _ (smul_lt30 ha hx) (smul_lt30 ha hy)])
    (fun x y hx hy => by simp only [smul_xor, lin_T _ _ hx hy]) ?_ 30 (by omega) c h
  intro i hi
  exact (show ∀ a : Fin 32, ∀ i : Fin 30, T (smul a (2 ^ i.val)) = smul a (T (2 ^ i.val)) by decide +kernel) ⟨a, ha⟩ ⟨i, hi⟩

theorem step_T {c v : Nat} (hc : c < 2 ^ 30) : polymodStep c v = T c ^^^ v := by
  unfold T
  rw [polymodStep_eq, polymodStep_eq, Nat.xor_zero]
  ac_rfl

/-- Sum of the columns from position `k` on, weighted with symbols (last symbol first). -/
def comb : (k : Nat) → List Nat → Nat
  | _, [] => 0
  | k, v :: r => smul v (col k) ^^^ comb (k + 1) r

theorem comb_lt : ∀ (r : List Nat) (k : Nat), (∀ v ∈ r, v < 32) → comb k r < 2 ^ 30 := by
  intro r
  induction r with
  | nil => intro k _; exact Nat.two_pow_pos 30
  | cons v r ih =>
    intro k h
    exact Nat.xor_lt_two_pow (smul_lt30 (h v (by simp)) (col_lt k)) (ih _ (fun x hx => h x (by simp [hx])))

theorem T_comb : ∀ (r : List Nat) (k : Nat), (∀ v ∈ r, v < 32) → T (comb k r) = comb (k + 1) r := by
  intro r
  induction r with
  | nil => intro k _; exact lin_T.zero
  | cons v r ih =>
    intro k h
    have hv := h v (by simp)
    have hr : ∀ x ∈ r, x < 32 := fun x hx => h x (by simp [hx])
    rw [comb, lin_T _ _ (smul_lt30 hv (col_lt k)) (comb_lt r _ hr), T_smul hv (col_lt k), ih _ hr]
    rfl

/-- `polymod` from the zero state is the weighted sum of the columns. -/
theorem pm_comb (r : List Nat) (h : ∀ v ∈ r, v < 32) : pm 0 r.reverse = comb 0 r := by
  induction r with
  | nil => rfl
  | cons v r ih =>
    have hv := h v (by simp)
    have hr : ∀ x ∈ r, x < 32 := fun x hx => h x (by simp [hx])
    rw [List.reverse_cons, pm_append, ih hr]
    show polymodStep (comb 0 r) v = _
    rw [step_T (comb_lt r 0 hr), T_comb r 0 hr, comb, col, smul_one hv, Nat.xor_comm]

/-! ### Checks -/

/-- Is `n` different from all?  (Written with recursors, as the kernel has to evaluate it.) -/
noncomputable def fresh (n : Nat) (l : List Nat) : Bool :=
  List.rec true (fun m _ ih => Bool.rec ih false (Nat.beq n m)) l

theorem fresh_cons (n m : Nat) (l : List Nat) : fresh n (m :: l) = bif Nat.beq n m then false else fresh n l := by
  have e : ∀ b t : Bool, Bool.rec (motive := fun _ => Bool) t false b = bif b then false else t := by decide
  exact e _ _

/-- All different. -/
noncomputable def distinct : List Nat → Bool
  | [] => true
  | n :: l => bif fresh n l then distinct l else false

/-- No zero vector. -/
def nonzero : List Nat → Bool
  | [] => true
  | n :: l => bif Nat.beq n 0 then false else nonzero l

/-- No two vectors of the list are proportional. -/
noncomputable def pairOk (l : List Nat) : Bool := bif nonzero l then distinct (l.map norm) else false

theorem fresh_iff (n l) : fresh n l = true ↔ n ∉ l := by
  induction l with
  | nil => simp [fresh]
  | cons m l ih =>
    rw [fresh_cons]
    have : Nat.beq n m = decide (n = m) := by rw [Bool.eq_iff_iff, decide_eq_true_iff, Nat.beq_eq]
    rw [this]
    by_cases h : n = m <;> simp [h, ih]

theorem distinct_sound : ∀ l, distinct l = true → l.Nodup := by
  intro l
  induction l with
  | nil => intro _; exact List.nodup_nil
  | cons n l ih =>
    intro h
    rw [distinct] at h
    cases hf : fresh n l with
    | false => rw [hf] at h; cases h
    | true => rw [hf] at h; exact List.nodup_cons.mpr ⟨(fresh_iff n l).mp hf, ih h⟩

theorem nonzero_sound : ∀ l, nonzero l = true → ∀ x ∈ l, x ≠ 0 := by
  intro l
  induction l with
  | nil => intro _ x hx; cases hx
  | cons n l ih =>
    intro h x hx
    rw [nonzero] at h
    cases hb : Nat.beq n 0 with
    | true => rw [hb] at h; cases h
    | false =>
      rw [hb] at h
      rcases List.mem_cons.mp hx with rfl | hx
      · exact Nat.ne_of_beq_eq_false hb
      · exact ih h x hx

theorem nodup_inj {l : List Nat} (h : l.Nodup) (i j : Nat) (hi : i < l.length) (hj : j < l.length) (e : l[i] = l[j]) : i = j := by
  rw [List.nodup_iff_pairwise_ne, List.pairwise_iff_getElem] at h
  rcases Nat.lt_trichotomy i j with hij | rfl | hij
  · exact absurd e (h i j hi hj hij)
  · rfl
  · exact absurd e.symm (h j i hj hi hij)

theorem pairOk_sound (l : List Nat) (h : pairOk l = true) (hl : ∀ x ∈ l, x < 2 ^ 30) :
    (∀ x ∈ l, x ≠ 0) ∧ ∀ i j (hi : i < j) (hj : j < l.length) a b, a < 32 → b < 32 →
      smul a (l[i]'(by omega)) = smul b l[j] → a = 0 ∧ b = 0 := by
  unfold pairOk at h
  cases hz : nonzero l with
  | false => rw [hz] at h; cases h
  | true =>
    rw [hz] at h
    have hnz := nonzero_sound l hz
    refine ⟨hnz, ?_⟩
    intro i j hij hj a b ha hb he
    have hi : i < l.length := by omega
    have nd := distinct_sound _ h
    obtain ⟨ni, li, s, hs, hs0, es⟩ := norm_spec (hl _ (List.getElem_mem hi)) (hnz _ (List.getElem_mem hi))
    obtain ⟨nj, lj, t, ht, ht0, et⟩ := norm_spec (hl _ (List.getElem_mem hj)) (hnz _ (List.getElem_mem hj))
    rw [← es, ← et, smul_smul ha hs li, smul_smul hb ht lj] at he
    rcases nf_unique (smul_lt5 ha hs) (smul_lt5 hb ht) li lj ni nj he with ⟨h1, h2⟩ | h
    · constructor
      · exact Decidable.byContradiction fun h0 => smul_ne_zero ha hs h0 hs0 h1
      · exact Decidable.byContradiction fun h0 => smul_ne_zero hb ht h0 ht0 h2
    · exfalso
      have h1 : (l.map norm)[i]'(by simp; omega) = (l.map norm)[j]'(by simp; omega) := by simpa using h
      have := nodup_inj nd i j (by simp; omega) (by simp; omega) h1
      omega

/-- The columns 1, 2, …, without their lowest symbol. -/
def ucols : (n c : Nat) → List Nat
  | 0, _ => []
  | n + 1, c => (T c >>> 5) :: ucols n (T c)

theorem ucols_get : ∀ (n i k : Nat) (h : k < (ucols n (col i)).length), (ucols n (col i))[k] = col (i + k + 1) >>> 5 := by
  intro n
  induction n with
  | zero => intro i k h; simp [ucols] at h
  | succ n ih =>
    intro i k h
    cases k with
    | zero => rfl
    | succ k =>
      simp only [ucols, List.getElem_cons_succ]
      have := ih (i + 1) k (by simp only [ucols, List.length_cons] at h; have e : T (col i) = col (i + 1) := rfl; rw [e] at h; omega)
      rw [show i + (k + 1) + 1 = i + 1 + k + 1 by omega, ← this]
      rfl

theorem ucols_length (n c : Nat) : (ucols n c).length = n := by
  induction n generalizing c with
  | zero => rfl
  | succ n ih => simp [ucols, ih]

/-- Projection along the normal form `x`, whose lowest symbol is at position `k`. -/
def proj (k x y : Nat) : Nat := y ^^^ smul (sym k y) x

/-- Position of the lowest non-zero symbol. -/
def lowPos (c : Nat) : Nat :=
  bif !Nat.beq (sym 0 c) 0 then 0 else bif !Nat.beq (sym 1 c) 0 then 1 else
  bif !Nat.beq (sym 2 c) 0 then 2 else bif !Nat.beq (sym 3 c) 0 then 3 else
  bif !Nat.beq (sym 4 c) 0 then 4 else 5

/-- No three vectors of the list are dependent. -/
noncomputable def tripleOk : List Nat → Bool
  | [] => true
  | x :: l => bif Nat.beq x 0 then false else
      bif Nat.beq (sym (lowPos x) (norm x)) 1 then
        bif pairOk (l.map (proj (lowPos x) (norm x))) then tripleOk l else false
      else false

theorem lowPos_lt (c : Nat) : lowPos c < 6 := by
  unfold lowPos
  cases (!Nat.beq (sym 0 c) 0) <;> cases (!Nat.beq (sym 1 c) 0) <;> cases (!Nat.beq (sym 2 c) 0) <;>
    cases (!Nat.beq (sym 3 c) 0) <;> cases (!Nat.beq (sym 4 c) 0) <;> decide

theorem proj_lt {k x y : Nat} (hx : x < 2 ^ 30) (hy : y < 2 ^ 30) : proj k x y < 2 ^ 30 :=
  Nat.xor_lt_two_pow hy (smul_lt30 (sym_lt _ _) hx)

theorem proj_xor (k x y z : Nat) : proj k x (y ^^^ z) = proj k x y ^^^ proj k x z := by
  unfold proj
  rw [sym_xor, xor_smul]
  ac_rfl

theorem proj_smul {k x y a : Nat} (hk : k < 6) (hx : x < 2 ^ 30) (hy : y < 2 ^ 30) (ha : a < 32) :
    proj k x (smul a y) = smul a (proj k x y) := by
  unfold proj
  rw [sym_smul ha hy hk, smul_xor, smul_smul ha (sym_lt _ _) hx]

theorem xor_eq_zero {a b : Nat} (h : a ^^^ b = 0) : a = b :=
  xor_cancel_left (a := b) (by rw [Nat.xor_self, Nat.xor_comm]; exact h)

theorem tripleOk_sound : ∀ l : List Nat, tripleOk l = true → (∀ x ∈ l, x < 2 ^ 30) →
    ∀ i j k (hij : i < j) (hjk : j < k) (hk : k < l.length) a b c, a < 32 → b < 32 → c < 32 →
      smul a (l[i]'(by omega)) ^^^ (smul b (l[j]'(by omega)) ^^^ smul c l[k]) = 0 → a = 0 ∧ b = 0 ∧ c = 0 := by
  intro l
  induction l with
  | nil => intro _ _ i j k _ _ hk; simp at hk
  | cons x l ih =>
    intro h hl i j k hij hjk hk a b c ha hb hc he
    rw [tripleOk] at h
    have hx := hl x (by simp)
    have hl' : ∀ y ∈ l, y < 2 ^ 30 := fun y hy => hl y (by simp [hy])
    cases h0 : Nat.beq x 0 with
    | true => rw [h0] at h; cases h
    | false =>
    cases h1 : Nat.beq (sym (lowPos x) (norm x)) 1 with
    | false => rw [h0, h1] at h; cases h
    | true =>
    cases h2 : pairOk (l.map (proj (lowPos x) (norm x))) with
    | false => rw [h0, h1, h2] at h; cases h
    | true =>
    rw [h0, h1, h2] at h
    have hx0 := Nat.ne_of_beq_eq_false h0
    have hs1 := Nat.eq_of_beq_eq_true h1
    obtain ⟨j, rfl⟩ : ∃ m, j = m + 1 := ⟨j - 1, by omega⟩
    obtain ⟨k, rfl⟩ : ∃ m, k = m + 1 := ⟨k - 1, by omega⟩
    have hk' : k < l.length := by simpa using hk
    cases i with
    | succ i => exact ih h hl' i j k (by omega) (by omega) hk' a b c ha hb hc he
    | zero =>
      simp only [List.getElem_cons_zero, List.getElem_cons_succ] at he
      obtain ⟨-, ln, t, ht, ht0, et⟩ := norm_spec hx hx0
      have hp := lowPos_lt x
      generalize lowPos x = p at *
      generalize hn : norm x = n at *
      have hj1 := hl' _ (List.getElem_mem (show j < l.length by omega))
      have hk1 := hl' _ (List.getElem_mem hk')
      have hx' : proj p n x = 0 := by
        rw [← et, proj_smul hp ln ln ht]
        unfold proj
        rw [hs1, one_smul, Nat.xor_self, smul_zero]
      have hz : proj p n 0 = 0 := by
        unfold proj
        have : sym p 0 = 0 := by unfold sym; simp
        rw [this, zero_smul, Nat.xor_self]
      have he' := congrArg (proj p n) he
      rw [proj_xor, proj_xor, proj_smul hp ln hx ha, hx', smul_zero, Nat.zero_xor, proj_smul hp ln hj1 hb,
        proj_smul hp ln hk1 hc, hz] at he'
      have hall : ∀ y ∈ l.map (proj p n), y < 2 ^ 30 := by
        intro y hy
        obtain ⟨z, hz, rfl⟩ := List.mem_map.mp hy
        exact proj_lt ln (hl' z hz)
      obtain ⟨rfl, rfl⟩ := (pairOk_sound _ h2 hall).2 j k (by omega) (by simpa using hk') b c hb hc (by
        simp only [List.getElem_map]; exact xor_eq_zero he')
      rw [zero_smul, zero_smul, Nat.xor_zero, Nat.xor_zero] at he
      exact ⟨Decidable.byContradiction fun ha0 => hx0 (smul_eq_zero ha hx ha0 he), rfl, rfl⟩

theorem check3 : pairOk (ucols 1022 1) = true := by decide +kernel
theorem check4 : tripleOk (ucols 88 1) = true := by decide +kernel

/-! ### Weights -/

/-- Number of non-zero symbols. -/
def weight (r : List Nat) : Nat := r.countP (· ≠ 0)

/-- Column without its lowest symbol. -/
def ucol (k : Nat) : Nat := col k >>> 5

theorem ucol_lt (k : Nat) : ucol k < 2 ^ 30 := by
  unfold ucol
  rw [Nat.shiftRight_eq_div_pow]
  exact Nat.lt_of_le_of_lt (Nat.div_le_self _ _) (col_lt k)

theorem shift_smul {a c : Nat} (ha : a < 32) (h : c < 2 ^ 30) : smul a c >>> 5 = smul a (c >>> 5) := by
  refine lin_ext 30 (f := fun c => smul a c >>> 5) (g := fun c => smul a (c >>> 5))
    (fun x y _ _ => by simp only [smul_xor, Nat.shiftRight_xor_distrib]) (fun x y _ _ => by simp only [smul_xor, Nat.shiftRight_xor_distrib]) ?_ 30 (by omega) c h
  intro i hi
  exact (show ∀ a : Fin 32, ∀ i : Fin 30, smul a (2 ^ i.val) >>> 5 = smul a (2 ^ i.val >>> 5) by decide +kernel) ⟨a, ha⟩ ⟨i, hi⟩

theorem comb_zeros : ∀ (m k : Nat) (r : List Nat), comb k (List.replicate m 0 ++ r) = comb (k + m) r := by
  intro m
  induction m with
  | zero => intro k r; rfl
  | succ m ih =>
    intro k r
    rw [List.replicate_succ, List.cons_append, comb, zero_smul, Nat.zero_xor, ih, show k + 1 + m = k + (m + 1) by omega]

theorem comb_weight0 : ∀ (r : List Nat) (k : Nat), weight r = 0 → comb k r = 0 := by
  intro r
  induction r with
  | nil => intro k _; rfl
  | cons v r ih =>
    intro k h
    unfold weight at h
    rw [List.countP_cons] at h
    have hv : v = 0 := by
      by_cases hv : v = 0
      · exact hv
      · simp [hv] at h
    have hw : weight r = 0 := by unfold weight; omega
    rw [comb, hv, zero_smul, Nat.zero_xor, ih _ hw]

/-- The first non-zero symbol. -/
theorem split_weight : ∀ (r : List Nat) (w : Nat), weight r = w + 1 →
    ∃ m v r', r = List.replicate m 0 ++ v :: r' ∧ v ≠ 0 ∧ weight r' = w := by
  intro r
  induction r with
  | nil => intro w h; simp [weight] at h
  | cons x r ih =>
    intro w h
    unfold weight at h
    rw [List.countP_cons] at h
    by_cases hx : x = 0
    · subst hx
      simp only [ne_eq, not_true_eq_false, decide_false, Bool.false_eq_true, if_false, Nat.add_zero] at h
      obtain ⟨m, v, r', e, hv, hw⟩ := ih w h
      exact ⟨m + 1, v, r', by rw [e, List.replicate_succ, List.cons_append], hv, hw⟩
    · refine ⟨0, x, r, rfl, hx, ?_⟩
      simp only [ne_eq, hx, not_false_eq_true, decide_true, if_true] at h
      unfold weight
      simp only [ne_eq]
      omega

theorem comb_shift_inj : ∀ (m : Nat) (r : List Nat), (∀ v ∈ r, v < 32) → comb m r = 0 → comb 0 r = 0 := by
  intro m
  induction m with
  | zero => intro r _ h; exact h
  | succ m ih =>
    intro r hr h
    apply ih r hr
    rw [← T_comb r m hr] at h
    exact step_zero_inj (comb_lt r m hr) h

/-- No vector of weight between 1 and 3 and length at most 1023, and none of weight 4 and length
at most 89, has checksum zero. -/
theorem weight_bound (r : List Nat) (hr : ∀ v ∈ r, v < 32) (hz : comb 0 r = 0)
    (hw : (weight r ≤ 3 ∧ r.length ≤ 1023) ∨ (weight r ≤ 4 ∧ r.length ≤ 89)) : weight r = 0 := by
  rcases Nat.eq_zero_or_pos (weight r) with h0 | hpos
  · exact h0
  exfalso
  have hu3 : ∀ x ∈ ucols 1022 1, x < 2 ^ 30 := by
    intro x hx
    obtain ⟨k, hk, rfl⟩ := List.mem_iff_getElem.mp hx
    have := ucols_get 1022 0 k hk
    exact this ▸ ucol_lt (0 + k + 1)
  have hu4 : ∀ x ∈ ucols 88 1, x < 2 ^ 30 := by
    intro x hx
    obtain ⟨k, hk, rfl⟩ := List.mem_iff_getElem.mp hx
    have := ucols_get 88 0 k hk
    exact this ▸ ucol_lt (0 + k + 1)
  have nz : ∀ k, 1 ≤ k → k < 1023 → ucol k ≠ 0 := by
    intro k h1 h2
    have hk : k - 1 < (ucols 1022 (col 0)).length := by rw [ucols_length]; omega
    have e := ucols_get 1022 0 (k - 1) hk
    rw [show 0 + (k - 1) + 1 = k by omega] at e
    have := (pairOk_sound _ check3 hu3).1 _ (List.getElem_mem hk)
    rw [e] at this
    exact this
  have two : ∀ i j, 1 ≤ i → i < j → j < 1023 → ∀ a b, a < 32 → b < 32 → smul a (ucol i) ^^^ smul b (ucol j) = 0 → a = 0 ∧ b = 0 := by
    intro i j h1 h2 h3 a b ha hb he
    have hj : j - 1 < (ucols 1022 (col 0)).length := by rw [ucols_length]; omega
    have hi : i - 1 < (ucols 1022 (col 0)).length := by omega
    have ei := ucols_get 1022 0 (i - 1) hi
    have ej := ucols_get 1022 0 (j - 1) hj
    rw [show 0 + (i - 1) + 1 = i by omega] at ei
    rw [show 0 + (j - 1) + 1 = j by omega] at ej
    refine (pairOk_sound _ check3 hu3).2 (i - 1) (j - 1) (by omega) hj a b ha hb ?_
    show smul a (ucols 1022 (col 0))[i - 1] = smul b (ucols 1022 (col 0))[j - 1]
    rw [ei, ej]
    exact xor_eq_zero he
  have three : ∀ i j k, 1 ≤ i → i < j → j < k → k < 89 → ∀ a b c, a < 32 → b < 32 → c < 32 →
      smul a (ucol i) ^^^ (smul b (ucol j) ^^^ smul c (ucol k)) = 0 → a = 0 ∧ b = 0 ∧ c = 0 := by
    intro i j k h1 h2 h3 h4 a b c ha hb hc he
    have hk : k - 1 < (ucols 88 (col 0)).length := by rw [ucols_length]; omega
    have hj : j - 1 < (ucols 88 (col 0)).length := by omega
    have hi : i - 1 < (ucols 88 (col 0)).length := by omega
    have ei := ucols_get 88 0 (i - 1) hi
    have ej := ucols_get 88 0 (j - 1) hj
    have ek := ucols_get 88 0 (k - 1) hk
    rw [show 0 + (i - 1) + 1 = i by omega] at ei
    rw [show 0 + (j - 1) + 1 = j by omega] at ej
    rw [show 0 + (k - 1) + 1 = k by omega] at ek
    refine tripleOk_sound _ check4 hu4 (i - 1) (j - 1) (k - 1) (by omega) (by omega) hk a b c ha hb hc ?_
    show smul a (ucols 88 (col 0))[i - 1] ^^^ (smul b (ucols 88 (col 0))[j - 1] ^^^ smul c (ucols 88 (col 0))[k - 1]) = 0
    rw [ei, ej, ek]
    exact he
  -- the lowest error
  obtain ⟨m0, v0, r0, e0, hv0, hw0⟩ := split_weight r (weight r - 1) (by omega)
  have hlen := congrArg List.length e0
  simp only [List.length_append, List.length_replicate, List.length_cons] at hlen
  have hv0l : v0 < 32 := hr v0 (by rw [e0]; simp)
  have hr0 : ∀ v ∈ r0, v < 32 := fun v hv => hr v (by rw [e0]; simp [hv])
  rw [e0, comb_zeros, Nat.zero_add] at hz
  have hz := comb_shift_inj m0 (v0 :: r0) (by intro v hv; rcases List.mem_cons.mp hv with rfl | hv <;> first | exact hv0l | exact hr0 v hv) hz
  rw [comb, col, smul_one hv0l] at hz
  -- drop the lowest symbol
  have hs : comb 1 r0 >>> 5 = 0 := by
    rw [← xor_eq_zero hz, Nat.shiftRight_eq_div_pow]
    exact Nat.div_eq_of_lt hv0l
  have w0 : weight r0 ≠ 0 := by
    intro h
    rw [comb_weight0 r0 _ h, Nat.xor_zero] at hz
    exact hv0 hz
  obtain ⟨m1, v1, r1, e1, hv1, hw1⟩ := split_weight r0 (weight r0 - 1) (by omega)
  have hlen1 := congrArg List.length e1
  simp only [List.length_append, List.length_replicate, List.length_cons] at hlen1
  have hv1l : v1 < 32 := hr0 v1 (by rw [e1]; simp)
  have hr1 : ∀ v ∈ r1, v < 32 := fun v hv => hr0 v (by rw [e1]; simp [hv])
  rw [e1, comb_zeros, comb, Nat.shiftRight_xor_distrib, shift_smul hv1l (col_lt _)] at hs
  change smul v1 (ucol (1 + m1)) ^^^ _ = 0 at hs
  rcases Nat.eq_zero_or_pos (weight r1) with h1 | h1
  · rw [comb_weight0 r1 _ h1, Nat.zero_shiftRight, Nat.xor_zero] at hs
    exact nz (1 + m1) (by omega) (by omega) (smul_eq_zero hv1l (ucol_lt _) hv1 hs)
  obtain ⟨m2, v2, r2, e2, hv2, hw2⟩ := split_weight r1 (weight r1 - 1) (by omega)
  have hlen2 := congrArg List.length e2
  simp only [List.length_append, List.length_replicate, List.length_cons] at hlen2
  have hv2l : v2 < 32 := hr1 v2 (by rw [e2]; simp)
  have hr2 : ∀ v ∈ r2, v < 32 := fun v hv => hr1 v (by rw [e2]; simp [hv])
  rw [e2, comb_zeros, comb, Nat.shiftRight_xor_distrib, shift_smul hv2l (col_lt _)] at hs
  change smul v1 (ucol (1 + m1)) ^^^ (smul v2 (ucol (1 + m1 + 1 + m2)) ^^^ _) = 0 at hs
  rcases Nat.eq_zero_or_pos (weight r2) with h2 | h2
  · rw [comb_weight0 r2 _ h2, Nat.zero_shiftRight, Nat.xor_zero] at hs
    exact hv1 (two (1 + m1) (1 + m1 + 1 + m2) (by omega) (by omega) (by omega) v1 v2 hv1l hv2l hs).1
  obtain ⟨m3, v3, r3, e3, hv3, hw3⟩ := split_weight r2 (weight r2 - 1) (by omega)
  have hlen3 := congrArg List.length e3
  simp only [List.length_append, List.length_replicate, List.length_cons] at hlen3
  have hv3l : v3 < 32 := hr2 v3 (by rw [e3]; simp)
  rw [e3, comb_zeros, comb, Nat.shiftRight_xor_distrib, shift_smul hv3l (col_lt _), comb_weight0 r3 _ (by omega),
    Nat.zero_shiftRight, Nat.xor_zero] at hs
  exact hv1 (three (1 + m1) (1 + m1 + 1 + m2) (1 + m1 + 1 + m2 + 1 + m3) (by omega) (by omega) (by omega) (by omega)
    v1 v2 v3 hv1l hv2l hv3l hs).1

end Cardano.Bech32
