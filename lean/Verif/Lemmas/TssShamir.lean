import Verif.Lemmas.Tss
import Verif.Spec.Tss

/-! # Lagrange coefficients, polynomial evaluation and share filtering -/

namespace Cardano.Tss

open Cardano Cardano.Ed Cardano.Bip32 Cardano.Spec.Tss Polynomial

/-! ### Lagrange coefficients -/

/-- Identifier `j` in the field. -/
def xv (ids : List Nat) (j : Nat) : F := ((ids.getD j 0 : Nat) : F)

theorem getD_getElem {l : List Nat} {i : Nat} (h : i < l.length) : l.getD i 0 = l[i] := by
  rw [List.getD_eq_getElem?_getD, List.getElem?_eq_getElem h]; rfl

theorem getD_lt {ids : List Nat} (h : ∀ x ∈ ids, x < 2 ^ 64) (j : Nat) : ids.getD j 0 < 2 ^ 64 := by
  rw [List.getD_eq_getElem?_getD]
  cases hj : ids[j]? with
  | none => decide
  | some x => exact h x (List.mem_of_getElem? hj)

theorem lagrange_fold {ids : List Nat} (h : ∀ x ∈ ids, x < 2 ^ 64) (i : Nat) : ∀ m,
    let nd := (List.range m).foldl (lagrangeStep ids i) (fromUint 1, fromUint 1)
    Canon nd.1 ∧ Canon nd.2 ∧
    sv nd.1 = ∏ j ∈ (Finset.range m).erase i, xv ids j ∧
    sv nd.2 = ∏ j ∈ (Finset.range m).erase i, (xv ids j - xv ids i) := by
  have key : ∀ m (f : Nat → F), ∏ j ∈ (Finset.range m).erase i, f j = ∏ j ∈ Finset.range m, (if j ≠ i then f j else 1) := by
    intro m f
    rw [← Finset.prod_erase (Finset.range m) (a := i) (f := fun j => if j ≠ i then f j else 1) (by simp)]
    apply Finset.prod_congr rfl
    intro j hj
    rw [if_pos (Finset.ne_of_mem_erase hj)]
  intro m
  induction m with
  | zero =>
    refine ⟨canon_fromUint (by decide), canon_fromUint (by decide), ?_, ?_⟩ <;>
      simp [sv_fromUint (v := 1) (by decide)]
  | succ m ih =>
    obtain ⟨c1, c2, e1, e2⟩ := ih
    simp only [List.range_succ, List.foldl_append, List.foldl_cons, List.foldl_nil]
    generalize (List.range m).foldl (lagrangeStep ids i) (fromUint 1, fromUint 1) = nd at c1 c2 e1 e2
    rw [key] at e1 e2
    rw [key, key, Finset.prod_range_succ, Finset.prod_range_succ, ← e1, ← e2]
    unfold lagrangeStep
    by_cases hm : m = i
    · subst hm
      simp only [ne_eq, not_true_eq_false, if_false, mul_one]
      exact ⟨c1, c2, trivial, trivial⟩
    · simp only [ne_eq, hm, not_false_eq_true, if_true]
      refine ⟨canon_mul _ _, canon_sub _ _, ?_, ?_⟩
      · rw [sv_mul, sv_fromUint (getD_lt h _)]; rfl
      · rw [sv_sub (canon_mul _ _), sv_mul, sv_mul, sv_fromUint (getD_lt h _), sv_fromUint (getD_lt h _), ← mul_sub]; rfl

theorem xv_inj {ids : List Nat} (h : ∀ x ∈ ids, x < 2 ^ 64) (hn : ids.Nodup) :
    Set.InjOn (xv ids) (Finset.range ids.length : Finset Nat) := by
  intro i hi j hj hij
  simp only [Finset.coe_range, Set.mem_Iio] at hi hj
  have h1 := (ZMod.natCast_eq_natCast_iff' _ _ _).mp hij
  have hb : (2 : Nat) ^ 64 < ellL := by decide +kernel
  rw [Nat.mod_eq_of_lt (Nat.lt_trans (getD_lt h i) hb), Nat.mod_eq_of_lt (Nat.lt_trans (getD_lt h j) hb)] at h1
  rw [getD_getElem hi, getD_getElem hj] at h1
  exact (List.Nodup.getElem_inj_iff hn).mp h1

theorem lagrangeAt_ok {ids : List Nat} (h : ∀ x ∈ ids, x < 2 ^ 64) (hn : ids.Nodup) {i : Nat} (hi : i < ids.length) :
    ∃ c, lagrangeAt ids i = .ok c ∧ Canon c ∧
      sv c = (Lagrange.basis (Finset.range ids.length) (xv ids) i).eval 0 := by
  obtain ⟨_, c2, e1, e2⟩ := lagrange_fold h i ids.length
  unfold lagrangeAt
  dsimp only at c2 e1 e2 ⊢
  have hne : sv ((List.range ids.length).foldl (lagrangeStep ids i) (fromUint 1, fromUint 1)).2 ≠ 0 := by
    rw [e2, Finset.prod_ne_zero_iff]
    intro j hj h0
    obtain ⟨hj1, hj2⟩ := Finset.mem_erase.mp hj
    exact hj1 (xv_inj h hn (by simpa using hj2) (by simpa using hi) (sub_eq_zero.mp h0))
  rcases scalarDiv_eq ((List.range ids.length).foldl (lagrangeStep ids i) (fromUint 1, fromUint 1)).1 c2 with ⟨h0, _⟩ | ⟨_, c, hc, hcc, hv⟩
  · exact absurd h0 hne
  refine ⟨c, hc, hcc, ?_⟩
  rw [hv, e1, e2, Lagrange.basis, eval_prod, ← Finset.prod_div_distrib]
  apply Finset.prod_congr rfl
  intro j hj
  obtain ⟨hj1, hj2⟩ := Finset.mem_erase.mp hj
  have hd : xv ids i - xv ids j ≠ 0 := fun h0 => hj1 (xv_inj h hn (by simpa using hj2) (by simpa using hi) (sub_eq_zero.mp h0).symm)
  have hd' : xv ids j - xv ids i ≠ 0 := fun h0 => hd (by rw [← neg_sub, h0, neg_zero])
  simp only [Lagrange.basisDivisor, eval_mul, eval_C, eval_sub, eval_X, zero_sub]
  rw [div_eq_iff hd']
  have : (xv ids i - xv ids j)⁻¹ * (xv ids i - xv ids j) = 1 := inv_mul_cancel₀ hd
  linear_combination (-xv ids j) * this

theorem lagrangeList_ok {ids : List Nat} (h : ∀ x ∈ ids, x < 2 ^ 64) (hn : ids.Nodup) : ∀ is : List Nat, (∀ i ∈ is, i < ids.length) →
    ∃ cs, lagrangeList ids is = .ok cs ∧ (∀ c ∈ cs, Canon c) ∧
      cs.map sv = is.map (fun i => (Lagrange.basis (Finset.range ids.length) (xv ids) i).eval 0) := by
  intro is
  induction is with
  | nil => intro _; exact ⟨[], rfl, by simp, rfl⟩
  | cons i is ih =>
    intro hi
    obtain ⟨c, h1, h2, h3⟩ := lagrangeAt_ok h hn (hi i (by simp))
    obtain ⟨cs, h4, h5, h6⟩ := ih (fun i h => hi i (by simp [h]))
    refine ⟨c :: cs, by rw [lagrangeList, h1, Out.ok_bind, h4]; rfl, ?_, by rw [List.map_cons, h3, h6]; rfl⟩
    intro x hx
    rcases List.mem_cons.mp hx with rfl | hx
    · exact h2
    · exact h5 x hx

theorem zip_range_sum (g : Nat → Nat → F) : ∀ (ids : List Nat) (k : Nat),
    (List.zipWith (fun x i => g x i) ids (List.range' k ids.length)).sum =
      ∑ i ∈ Finset.range ids.length, g (ids.getD i 0) (k + i) := by
  intro ids
  induction ids with
  | nil => intro k; simp
  | cons x xs ih =>
    intro k
    rw [List.length_cons, List.range'_succ, List.zipWith_cons_cons, List.sum_cons, ih (k + 1), Finset.sum_range_succ']
    rw [add_comm]
    congr 1
    apply Finset.sum_congr rfl
    intro i _
    rw [List.getD_cons_succ]
    congr 1; omega

/-- For distinct 64-bit identifiers the computed coefficients interpolate at zero. -/
theorem lagrange_ok {ids : List Nat} (h : ∀ x ∈ ids, x < 2 ^ 64) (hn : ids.Nodup) :
    ∃ cs, lagrange ids = .ok cs ∧ (∀ c ∈ cs, Canon c) ∧ InterpolatesAtZero ids (cs.map sv) := by
  obtain ⟨cs, h1, h2, h3⟩ := lagrangeList_ok h hn (List.range ids.length) (fun i hi => List.mem_range.mp hi)
  refine ⟨cs, h1, h2, ?_, ?_⟩
  · rw [h3]; simp
  · intro f hf
    rw [h3, List.zipWith_map_right, List.range_eq_range']
    rw [zip_range_sum (fun x i => (Lagrange.basis (Finset.range ids.length) (xv ids) i).eval 0 * f.eval ((x : Nat) : F)) ids 0]
    have := Lagrange.eq_interpolate (s := Finset.range ids.length) (v := xv ids) (f := f) (xv_inj h hn) (by rw [Finset.card_range]; exact hf)
    conv_rhs => rw [this, Lagrange.interpolate_apply, eval_finsetSum]
    apply Finset.sum_congr rfl
    intro i _
    rw [Nat.zero_add, eval_mul, eval_C, mul_comm]; rfl

/-- With a repeated identifier the computation throws. -/
theorem lagrange_dup {ids : List Nat} (h : ∀ x ∈ ids, x < 2 ^ 64) (hn : ¬ ids.Nodup) :
    lagrange ids = .throw .invalidArgument := by
  have step : ∀ is : List Nat, (∀ i ∈ is, (∃ c, lagrangeAt ids i = .ok c) ∨ lagrangeAt ids i = .throw .invalidArgument) →
      (∃ i ∈ is, lagrangeAt ids i = .throw .invalidArgument) → lagrangeList ids is = .throw .invalidArgument := by
    intro is
    induction is with
    | nil => rintro _ ⟨i, hi, _⟩; simp at hi
    | cons i is ih =>
      rintro hall ⟨i', hi', he⟩
      rw [lagrangeList]
      rcases hall i (by simp) with ⟨c, hc⟩ | hc
      · rw [hc, Out.ok_bind, ih (fun i h => hall i (by simp [h])) ⟨i', by
          rcases List.mem_cons.mp hi' with rfl | h'
          · rw [hc] at he; exact absurd he (by simp)
          · exact h', he⟩]
        rfl
      · rw [hc]; rfl
  rw [List.nodup_iff_injective_getElem] at hn
  simp only [Function.Injective, not_forall] at hn
  obtain ⟨⟨i, hi⟩, ⟨j, hj⟩, hij, hne⟩ := hn
  unfold lagrange
  apply step
  · intro k _
    obtain ⟨_, c2, _, _⟩ := lagrange_fold h k ids.length
    unfold lagrangeAt
    rcases scalarDiv_eq ((List.range ids.length).foldl (lagrangeStep ids k) (fromUint 1, fromUint 1)).1 c2 with ⟨_, h0⟩ | ⟨_, c, hc, _⟩
    · exact .inr h0
    · exact .inl ⟨c, hc⟩
  · refine ⟨i, List.mem_range.mpr hi, ?_⟩
    obtain ⟨_, c2, _, e2⟩ := lagrange_fold h i ids.length
    unfold lagrangeAt
    rcases scalarDiv_eq ((List.range ids.length).foldl (lagrangeStep ids i) (fromUint 1, fromUint 1)).1 c2 with ⟨_, h0⟩ | ⟨hne0, _⟩
    · exact h0
    · exfalso
      apply hne0
      rw [e2]
      apply Finset.prod_eq_zero (i := j)
      · refine Finset.mem_erase.mpr ⟨?_, Finset.mem_range.mpr hj⟩
        rintro rfl; exact hne rfl
      · have : ids.getD j 0 = ids.getD i 0 := by
          rw [getD_getElem hi, getD_getElem hj]; exact hij.symm
        unfold xv; rw [this, sub_self]

/-! ### evaluation -/

theorem evalLoop_ok {xi : Nat} (hx : xi < 2 ^ 64) : ∀ (rest pre coefs : List Bytes) (ai : Bytes), coefs = pre ++ rest → Canon ai →
    ∃ y, evalLoop coefs xi rest.length (pre.length + 1) ai = .ok y ∧ Canon y ∧
      sv y = sv ai + (xi : F) ^ (pre.length + 1) * (ofCoeffs (rest.map sv)).eval (xi : F) := by
  intro rest
  induction rest with
  | nil => intro pre coefs ai _ ha; exact ⟨ai, rfl, ha, by simp [ofCoeffs]⟩
  | cons c rest ih =>
    intro pre coefs ai hc ha
    have hget : coefs[pre.length + 1 - 1]? = some c := by rw [hc]; simp
    obtain ⟨y, h1, h2, h3⟩ := ih (pre ++ [c]) coefs (scalarAdd ai (scalarMul c (fromUintPow xi (pre.length + 1))))
      (by rw [hc]; simp) (canon_add _ _)
    refine ⟨y, ?_, h2, ?_⟩
    · rw [List.length_cons, evalLoop, hget]
      simp only []
      rw [← h1]; simp
    · rw [h3, sv_add ha (canon_mul _ _), sv_mul, sv_fromUintPow hx]
      simp only [List.map_cons, ofCoeffs, eval_add, eval_C, eval_mul, eval_X, List.length_append, List.length_cons, List.length_nil]
      ring

/-- The share of `xi`: the polynomial with constant term `s` and the given coefficients. -/
theorem evalLoop_share {xi : Nat} (hx : xi < 2 ^ 64) (coefs : List Bytes) (s : Bytes) (hs : Canon s) :
    ∃ y, evalLoop coefs xi coefs.length 1 s = .ok y ∧ Canon y ∧
      sv y = (ofCoeffs (sv s :: coefs.map sv)).eval (xi : F) := by
  obtain ⟨y, h1, h2, h3⟩ := evalLoop_ok hx coefs [] coefs s rfl hs
  refine ⟨y, h1, h2, ?_⟩
  rw [h3]
  simp [ofCoeffs]

theorem ofCoeffs_coeff : ∀ (cs : List F) (j : Nat), (ofCoeffs cs).coeff j = cs.getD j 0 := by
  intro cs
  induction cs with
  | nil => intro j; simp [ofCoeffs]
  | cons c cs ih =>
    intro j
    rw [ofCoeffs, coeff_add]
    cases j with
    | zero => simp
    | succ j => rw [coeff_X_mul, ih, coeff_C_succ, zero_add, List.getD_cons_succ]

theorem ofCoeffs_degree (cs : List F) : (ofCoeffs cs).degree < cs.length := by
  rw [degree_lt_iff_coeff_zero]
  intro m hm
  rw [ofCoeffs_coeff, List.getD_eq_getElem?_getD, List.getElem?_eq_none hm]; rfl

theorem ofCoeffs_eval_zero (c : F) (cs : List F) : (ofCoeffs (c :: cs)).eval 0 = c := by
  simp [ofCoeffs]

theorem shamirShares_spec (P : Prims) (s : Bytes) (hs : Canon s) (t : UInt32) (coefs : List Bytes) (hl : coefs.length = t.toNat - 1) :
    ∀ ids : List Nat, (∀ x ∈ ids, x < 2 ^ 64) →
    ∃ keys, shamirShares P s t coefs ids = .ok keys ∧ keys.map KeyShare.id = ids ∧
      ∀ k ∈ keys, k.key.WF ∧ sv (keyScalar k.key) = (ofCoeffs (sv s :: coefs.map sv)).eval (k.id : F) ∧
        k.key = extKey P (keyScalar k.key) := by
  intro ids
  induction ids with
  | nil => intro _; exact ⟨[], rfl, rfl, by simp⟩
  | cons x xs ih =>
    intro h
    obtain ⟨y, h1, h2, h3⟩ := evalLoop_share (h x (by simp)) coefs s hs
    obtain ⟨keys, h4, h5, h6⟩ := ih (fun x hx => h x (by simp [hx]))
    obtain ⟨e1, _, e3⟩ := extKey_scalar P h2
    refine ⟨⟨x, extKey P y⟩ :: keys, ?_, by rw [List.map_cons, h5], ?_⟩
    · rw [shamirShares, ← hl, h1, Out.ok_bind, h4]; rfl
    · intro k hk
      rcases List.mem_cons.mp hk with rfl | hk
      · exact ⟨e3, by simp only []; rw [e1, h3], by simp only []; rw [e1]⟩
      · exact h6 k hk

/-! ### filtering -/

/-- Same identifier and same key bytes. -/
def sameShare (a b : KeyShare) : Prop := a.id = b.id ∧ a.key.key = b.key.key

theorem filterShares_spec : ∀ (l acc : List KeyShare),
    (∀ k ∈ acc, k.id ≠ 0) → acc.Pairwise (fun a b => ¬ sameShare a b) →
    let r := filterShares l acc
    (∀ k ∈ r, k.id ≠ 0) ∧ r.Pairwise (fun a b => ¬ sameShare a b) ∧ (∀ k ∈ r, k ∈ acc ∨ k ∈ l) ∧
      (∀ k ∈ acc, k ∈ r) ∧ (∀ k ∈ l, k.id ≠ 0 → ∃ k' ∈ r, sameShare k' k) := by
  intro l
  induction l with
  | nil => intro acc h1 h2; exact ⟨h1, h2, fun k hk => .inl hk, fun k hk => hk, by simp⟩
  | cons k l ih =>
    intro acc h1 h2
    rw [filterShares]
    by_cases h0 : k.id = 0
    · rw [if_pos h0]
      obtain ⟨a, b, c, d, e⟩ := ih acc h1 h2
      refine ⟨a, b, fun x hx => (c x hx).imp id (fun h => by simp [h]), d, ?_⟩
      intro x hx hx0
      rcases List.mem_cons.mp hx with rfl | hx
      · exact absurd h0 hx0
      · exact e x hx hx0
    · rw [if_neg h0]
      by_cases hd : acc.any (fun f => f.id == k.id && k.key.key == f.key.key) = true
      · rw [if_pos hd]
        obtain ⟨a, b, c, d, e⟩ := ih acc h1 h2
        refine ⟨a, b, fun x hx => (c x hx).imp id (fun h => by simp [h]), d, ?_⟩
        intro x hx hx0
        rcases List.mem_cons.mp hx with rfl | hx
        · obtain ⟨f, hf, hff⟩ := List.any_eq_true.mp hd
          simp only [Bool.and_eq_true, beq_iff_eq] at hff
          exact ⟨f, d f hf, hff.1, hff.2.symm⟩
        · exact e x hx hx0
      · rw [if_neg hd]
        have hacc : ∀ x ∈ acc, ¬ sameShare x k := by
          intro x hx hs
          apply hd
          exact List.any_eq_true.mpr ⟨x, hx, by simp [hs.1, hs.2]⟩
        obtain ⟨a, b, c, d, e⟩ := ih (acc ++ [k]) (by
          intro x hx
          rcases List.mem_append.mp hx with h | h
          · exact h1 x h
          · rw [List.mem_singleton] at h; subst h; exact h0) (by
          rw [List.pairwise_append]
          refine ⟨h2, by simp, ?_⟩
          intro x hx y hy
          rw [List.mem_singleton] at hy; subst hy
          exact hacc x hx)
        refine ⟨a, b, ?_, fun x hx => d x (by simp [hx]), ?_⟩
        · intro x hx
          rcases c x hx with h | h
          · rcases List.mem_append.mp h with h | h
            · exact .inl h
            · rw [List.mem_singleton] at h; subst h; exact .inr (by simp)
          · exact .inr (by simp [h])
        · intro x hx hx0
          rcases List.mem_cons.mp hx with rfl | hx
          · exact ⟨x, d x (by simp), rfl, rfl⟩
          · exact e x hx hx0

theorem weightedSum_spec : ∀ (cs : List Bytes) (ks : List KeyShare) (s : Bytes), (∀ c ∈ cs, Canon c) → Canon s →
    Canon (weightedSum cs ks s) ∧
      sv (weightedSum cs ks s) = sv s + (List.zipWith (fun c k => sv c * sv (keyScalar k.key)) cs ks).sum := by
  intro cs
  induction cs with
  | nil => intro ks s _ hs; exact ⟨by unfold weightedSum; exact hs, by simp [weightedSum]⟩
  | cons c cs ih =>
    intro ks s hc hs
    cases ks with
    | nil => exact ⟨hs, by simp [weightedSum]⟩
    | cons k ks =>
      obtain ⟨a, b⟩ := ih ks (scalarAdd s (scalarMul c (keyScalar k.key))) (fun c h => hc c (by simp [h])) (canon_add _ _)
      refine ⟨a, ?_⟩
      rw [weightedSum, b, sv_add hs (canon_mul _ _), sv_mul, List.zipWith_cons_cons, List.sum_cons]; ring

end Cardano.Tss
