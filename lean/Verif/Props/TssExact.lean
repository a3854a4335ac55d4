import Verif.Props.TssShamir
import Mathlib.LinearAlgebra.Lagrange

/-! # C36, exactly: what fewer than `t` Shamir shares say about the key

`C36_nearly_perfect_partial` bounds the secrets that are ruled out.  Here: with exactly `t - 1` shares these are exactly the
ruled out ones, and with at most `t - 2` (and at most seven) shares none is. -/

namespace Cardano.Tss

open Cardano Cardano.Ed Cardano.Bip32 Cardano.Spec.Bip32 Cardano.Spec.Tss Polynomial

/-- The shares numbered in `I` are compatible with the root key `root'`: with some random scalars (32 bytes, reduced) the dealer
deals exactly these shares for it. -/
def Compatible (C : Curve) (P : Prims) (n t : UInt32) (keys : List KeyShare) (I : Finset Nat) (root' : Prv) : Prop :=
  ∃ coefs' pub' keys', coefs'.length = t.toNat - 1 ∧ (∀ c ∈ coefs', Canon c) ∧
    shamirSplit C P root' n t coefs' = .ok (pub', keys') ∧ ∀ k ∈ keys, k.id ∈ I → k ∈ keys'

/-- A dealing and its polynomial. -/
theorem split_poly {C : Curve} {P : Prims} {root : Prv} {n t : UInt32} {coefs : List Bytes} (hl : coefs.length = t.toNat - 1)
    (hcan : ∀ c ∈ coefs, Canon c) {pub : Pub} {keys : List KeyShare} (h : shamirSplit C P root n t coefs = .ok (pub, keys)) :
    ∃ f : F[X], f.eval 0 = ((kL root.key : Nat) : F) ∧ f.natDegree ≤ t.toNat - 1 ∧ (∀ j < t.toNat - 1, f.coeff (j + 1) ≠ 0) ∧
      keys.map KeyShare.id = shareIds n ∧
      ∀ k ∈ keys, sv (keyScalar k.key) = f.eval (k.id : F) ∧ k.key = extKey P (keyScalar k.key) := by
  obtain ⟨h0, hc⟩ := shamirSplit_ok h
  obtain ⟨pub', keys', h1, _, h2, h3⟩ := shamirSplit_spec C P root n t coefs hl h0 hc
  rw [h] at h1
  obtain ⟨rfl, rfl⟩ := Prod.mk.inj (Out.ok.inj h1)
  refine ⟨_, ofCoeffs_eval_zero _ _, ?_, ?_, h2, fun k hk => (h3 k hk).2⟩
  · rw [← hl]; have := ofCoeffs_natDegree (((kL root.key : Nat) : F)) (coefs.map sv); rwa [List.length_map] at this
  · intro j hj
    rw [ofCoeffs_coeff, List.getD_cons_succ, List.getD_eq_getElem?_getD, List.getElem?_map,
      List.getElem?_eq_getElem (by omega)]
    simp only [Option.map_some, Option.getD_some]
    intro hz
    have hm : coefs[j]'(by omega) ∈ coefs := List.getElem_mem _
    have := (isZero_iff (hcan _ hm)).mpr hz
    rw [hc _ hm] at this; exact absurd this (by simp)

/-- A polynomial without zero coefficients that agrees with the shares makes a dealing with these shares. -/
theorem compatible_of_poly (C : Curve) (P : Prims) {n t : UInt32} {keys : List KeyShare} {I : Finset Nat} {f : F[X]}
    (h2 : keys.map KeyShare.id = shareIds n)
    (h3 : ∀ k ∈ keys, sv (keyScalar k.key) = f.eval (k.id : F) ∧ k.key = extKey P (keyScalar k.key))
    (root' : Prv) (hr0 : ¬ ellL ∣ kL root'.key) (g : F[X]) (g1 : g.eval 0 = ((kL root'.key : Nat) : F))
    (g2 : g.natDegree ≤ t.toNat - 1) (hgc : ∀ j < t.toNat - 1, g.coeff (j + 1) ≠ 0)
    (g3 : ∀ x ∈ I, g.eval (x : F) = f.eval (x : F)) : Compatible C P n t keys I root' := by
  have hlen : (tailBytes g (t.toNat - 1)).length = t.toNat - 1 := by simp [tailBytes]
  have hcan' : ∀ c ∈ tailBytes g (t.toNat - 1), Canon c := by
    intro c hc
    obtain ⟨j, _, rfl⟩ := List.mem_map.mp hc
    exact canon_le32mod _
  obtain ⟨pub2, keys2, k1, _, k2, k3⟩ := shamirSplit_spec C P root' n t (tailBytes g (t.toNat - 1)) hlen hr0 (by
    intro c hc
    obtain ⟨j, hj, rfl⟩ := List.mem_map.mp hc
    cases hz : isZero (le32 ((g.coeff (j + 1)).val % ellL)) with
    | false => rfl
    | true =>
      have := (isZero_iff (canon_le32mod _)).mp hz
      rw [sv_le32mod, ZMod.natCast_zmod_val] at this
      exact absurd this (hgc j (List.mem_range.mp hj)))
  have htl := ofCoeffs_tail g (t.toNat - 1) g2
  rw [g1] at htl
  rw [htl] at k3
  refine ⟨_, pub2, keys2, hlen, hcan', k1, ?_⟩
  intro k hk hkI
  have : k.id ∈ keys2.map KeyShare.id := by rw [k2, ← h2]; exact List.mem_map_of_mem hk
  obtain ⟨k', hk', hkid⟩ := List.mem_map.mp this
  have e1 : keyScalar k'.key = keyScalar k.key := by
    apply canon_inj (canon_keyScalar _) (canon_keyScalar _)
    rw [(k3 k' hk').2.1, (h3 k hk).1, hkid, g3 k.id hkI]
  have e2 : k' = k := by
    cases k' with | mk i1 p1 => cases k with | mk i2 p2 =>
    simp only at hkid e1
    have a := (k3 _ hk').2.2
    have b := (h3 _ hk).2
    simp only at a b
    rw [hkid, a, b, e1]
  rw [← e2]; exact hk'

theorem id_inj {x y : Nat} (hx : x < 2 ^ 64) (hy : y < 2 ^ 64) (h : (x : F) = (y : F)) : x = y := by
  rw [ZMod.natCast_eq_natCast_iff] at h
  have hb : (2 : Nat) ^ 64 < ellL := by decide +kernel
  unfold Nat.ModEq at h
  rwa [Nat.mod_eq_of_lt (by omega), Nat.mod_eq_of_lt (by omega)] at h

/-- Two polynomials of degree at most `|I|` with the same value at 0 and on `I` are equal. -/
theorem poly_unique {f g : F[X]} {I : Finset Nat} (hid : ∀ x ∈ I, 1 ≤ x ∧ x < 2 ^ 64) (hf : f.natDegree ≤ I.card) (hg : g.natDegree ≤ I.card)
    (h0 : f.eval 0 = g.eval 0) (h : ∀ x ∈ I, f.eval (x : F) = g.eval (x : F)) : f = g := by
  have h0I : 0 ∉ I := fun h => by have := (hid 0 h).1; omega
  have hinj : Set.InjOn (fun x : Nat => (x : F)) (insert 0 I : Finset Nat) := by
    intro x hx y hy e
    have hb : ∀ z ∈ (insert 0 I : Finset Nat), z < 2 ^ 64 := by
      intro z hz
      rcases Finset.mem_insert.mp hz with rfl | hz
      · decide
      · exact (hid z hz).2
    exact id_inj (hb x (by exact_mod_cast hx)) (hb y (by exact_mod_cast hy)) e
  have hcard : (insert 0 I : Finset Nat).card = I.card + 1 := Finset.card_insert_of_notMem h0I
  have hlt : ∀ p : F[X], p.natDegree ≤ I.card → p.degree < ((insert 0 I : Finset Nat).card : WithBot ℕ) := by
    intro p hp
    rw [hcard]
    exact lt_of_le_of_lt degree_le_natDegree (by exact_mod_cast Nat.lt_succ_of_le hp)
  refine Polynomial.eq_of_degrees_lt_of_eval_index_eq (insert 0 I : Finset Nat) hinj (hlt f hf) (hlt g hg) ?_
  intro x hx
  rcases Finset.mem_insert.mp hx with rfl | hx
  · simpa using h0
  · exact h x hx

/-! ### The coefficients of the vanishing polynomial -/

/-- `∏ (x + X)` over the naturals. -/
noncomputable def plus (I : Finset Nat) : ℕ[X] := ∏ x ∈ I, (C x + X)

theorem plus_pos (I : Finset Nat) (h : ∀ x ∈ I, 1 ≤ x) : ∀ k ≤ I.card, 1 ≤ (plus I).coeff k := by
  classical
  induction I using Finset.induction_on with
  | empty => intro k hk; simp at hk; subst hk; simp [plus]
  | insert a s ha ih =>
    intro k hk
    rw [Finset.card_insert_of_notMem ha] at hk
    have ih' := ih (fun x hx => h x (Finset.mem_insert_of_mem hx))
    have he : plus (insert a s) = (C a + X) * plus s := by unfold plus; rw [Finset.prod_insert ha]
    rw [he, add_mul, coeff_add, coeff_C_mul]
    cases k with
    | zero =>
      have := Nat.mul_le_mul (h a (Finset.mem_insert_self _ _)) (ih' 0 (Nat.zero_le _))
      omega
    | succ k =>
      rw [coeff_X_mul]
      have := ih' k (by omega)
      omega

theorem plus_le (I : Finset Nat) (h : ∀ x ∈ I, x < 2 ^ 32) (k : Nat) : (plus I).coeff k ≤ 2 ^ (32 * I.card) := by
  classical
  induction I using Finset.induction_on generalizing k with
  | empty => cases k <;> simp [plus, coeff_one]
  | insert a s ha ih =>
    have ih' := ih (fun x hx => h x (Finset.mem_insert_of_mem hx))
    have he : plus (insert a s) = (C a + X) * plus s := by unfold plus; rw [Finset.prod_insert ha]
    rw [he, add_mul, coeff_add, coeff_C_mul, Finset.card_insert_of_notMem ha]
    have ha' : a + 1 ≤ 2 ^ 32 := h a (Finset.mem_insert_self _ _)
    have h1 : a * (plus s).coeff k ≤ a * 2 ^ (32 * s.card) := Nat.mul_le_mul_left _ (ih' k)
    have h2 : (X * plus s).coeff k ≤ 2 ^ (32 * s.card) := by
      cases k with
      | zero => rw [coeff_X_mul_zero]; exact Nat.zero_le _
      | succ k => rw [coeff_X_mul]; exact ih' k
    calc a * (plus s).coeff k + (X * plus s).coeff k ≤ (a + 1) * 2 ^ (32 * s.card) := by rw [Nat.add_mul, Nat.one_mul]; omega
      _ ≤ 2 ^ 32 * 2 ^ (32 * s.card) := Nat.mul_le_mul_right _ ha'
      _ = 2 ^ (32 * (s.card + 1)) := by rw [← pow_add]; congr 1; ring

/-- The coefficients of the vanishing polynomial, up to sign and a common factor. -/
theorem vanish_coeff (I : Finset Nat) (h : ∀ x ∈ I, 1 ≤ x ∧ x < 2 ^ 64) (k : Nat) :
    (∏ x ∈ I, (x : F)) * (vanish I).coeff k = (-1) ^ k * ((plus I).coeff k : F) := by
  have he : C (∏ x ∈ I, (x : F)) * vanish I = ((plus I).map (Nat.castRingHom F)).comp (-X) := by
    unfold vanish plus
    rw [Polynomial.map_prod, Polynomial.prod_comp, map_prod, ← Finset.prod_mul_distrib]
    refine Finset.prod_congr rfl fun x hx => ?_
    have h0 := id_ne_zero (h x hx).1 (h x hx).2
    rw [Polynomial.map_add, Polynomial.map_X, Polynomial.map_C, add_comp, X_comp, C_comp, mul_sub, mul_one, ← mul_assoc,
      ← C_mul, mul_inv_cancel₀ h0, C_1, one_mul]
    simp [sub_eq_add_neg]
  have := congrArg (fun p => p.coeff k) he
  simp only [coeff_C_mul] at this
  rw [this, show (-X : F[X]) = C (-1) * X by simp, comp_C_mul_X_coeff, coeff_map, mul_comm]
  rfl

theorem vanish_coeff_ne (I : Finset Nat) (h : ∀ x ∈ I, 1 ≤ x ∧ x < 2 ^ 32) (h7 : I.card ≤ 7) (k : Nat) (hk : k ≤ I.card) :
    (vanish I).coeff k ≠ 0 := by
  intro hz
  have h1 := vanish_coeff I (fun x hx => ⟨(h x hx).1, by have := (h x hx).2; omega⟩) k
  rw [hz, mul_zero] at h1
  have h2 : ((plus I).coeff k : F) = 0 := by
    rcases mul_eq_zero.mp h1.symm with h | h
    · exact absurd h (pow_ne_zero _ (neg_ne_zero.mpr one_ne_zero))
    · exact h
  rw [← dvd_iff] at h2
  have h3 := Nat.le_of_dvd (plus_pos I (fun x hx => (h x hx).1) k hk) h2
  have h4 := plus_le I (fun x hx => (h x hx).2) k
  have h5 : 2 ^ (32 * I.card) ≤ 2 ^ (32 * 7) := Nat.pow_le_pow_right (by decide) (by omega)
  have h6 : 2 ^ (32 * 7) < ellL := by decide +kernel
  omega

/-- **C36**, exactly, one share short.  The shares of any `t - 1` holders rule out at most `t - 1` scalars (at least one, if there
are one to seven shares), and all other keys are compatible with these shares. -/
theorem C36_one_short_iff (C : Curve) (P : Prims) (root : Prv) (n t : UInt32) (coefs : List Bytes)
    (hl : coefs.length = t.toNat - 1) (hcan : ∀ c ∈ coefs, Canon c) (pub : Pub) (keys : List KeyShare)
    (h : shamirSplit C P root n t coefs = .ok (pub, keys)) (I : Finset Nat) (hI : I.card + 1 = t.toNat)
    (hid : ∀ x ∈ I, x ∈ keys.map KeyShare.id) :
    ∃ excluded : Finset F, excluded.card ≤ t.toNat - 1 ∧ (1 ≤ I.card → I.card ≤ 7 → excluded.Nonempty) ∧
      ∀ root' : Prv, ¬ ellL ∣ kL root'.key → (Compatible C P n t keys I root' ↔ ((kL root'.key : Nat) : F) ∉ excluded) := by
  classical
  obtain ⟨f, hf0, hfd, hfc, h2, h3⟩ := split_poly hl hcan h
  have hid32 : ∀ x ∈ I, 1 ≤ x ∧ x < 2 ^ 32 := by
    intro x hx
    have := hid x hx
    rw [h2] at this
    have hn := n.toNat_lt
    have := shareIds_mem this
    exact ⟨this.1, by omega⟩
  have hid' : ∀ x ∈ I, 1 ≤ x ∧ x < 2 ^ 64 := fun x hx => ⟨(hid32 x hx).1, by have := (hid32 x hx).2; omega⟩
  refine ⟨((Finset.range (t.toNat - 1)).filter (fun j => (vanish I).coeff (j + 1) ≠ 0)).image
      (fun j => f.eval 0 - f.coeff (j + 1) / (vanish I).coeff (j + 1)),
    Nat.le_trans Finset.card_image_le (Nat.le_trans (Finset.card_filter_le _ _) (by simp)), ?_, ?_⟩
  · intro h1 h7
    exact ⟨_, Finset.mem_image_of_mem _ (Finset.mem_filter.mpr ⟨Finset.mem_range.mpr (by omega : 0 < t.toNat - 1),
      vanish_coeff_ne I hid32 h7 1 h1⟩)⟩
  intro root' hr0
  obtain ⟨g1, g2, g3⟩ := shifted_spec f I ((kL root'.key : Nat) : F) (t.toNat - 1) hfd (by omega) hid'
  constructor
  · rintro ⟨coefs', pub', keys', hl', hcan', hs, hsame⟩ hex
    obtain ⟨f', hf0', hfd', hfc', h2', h3'⟩ := split_poly hl' hcan' hs
    have hag : ∀ x ∈ I, f'.eval (x : F) = f.eval (x : F) := by
      intro x hx
      obtain ⟨k, hk, rfl⟩ := List.mem_map.mp (hid x hx)
      rw [← (h3 k hk).1, ← (h3' k (hsame k hk hx)).1]
    have heq : f' = shifted f I ((kL root'.key : Nat) : F) :=
      poly_unique hid' (by omega) (by omega) (by rw [hf0', g1]) (fun x hx => by rw [hag x hx, g3 x hx])
    obtain ⟨j, hj, hv⟩ := Finset.mem_image.mp hex
    obtain ⟨hj, hv0⟩ := Finset.mem_filter.mp hj
    refine hfc' j (Finset.mem_range.mp hj) ?_
    rw [heq]
    unfold shifted
    rw [coeff_add, coeff_C_mul, ← hv]
    field_simp
    ring
  · intro hex
    refine compatible_of_poly C P h2 h3 root' hr0 _ g1 g2 ?_ g3
    intro j hj hz
    unfold shifted at hz
    rw [coeff_add, coeff_C_mul] at hz
    by_cases hv : (vanish I).coeff (j + 1) = 0
    · rw [hv, mul_zero, add_zero] at hz; exact hfc j hj hz
    · apply hex
      refine Finset.mem_image.mpr ⟨j, Finset.mem_filter.mpr ⟨Finset.mem_range.mpr hj, hv⟩, ?_⟩
      field_simp
      linear_combination -hz

/-- **C36**, two or more shares short: the shares of at most `t - 2` holders (and at most seven) are compatible with every key:
they rule out nothing. -/
theorem C36_two_short (C : Curve) (P : Prims) (root : Prv) (n t : UInt32) (coefs : List Bytes)
    (hl : coefs.length = t.toNat - 1) (hcan : ∀ c ∈ coefs, Canon c) (pub : Pub) (keys : List KeyShare)
    (h : shamirSplit C P root n t coefs = .ok (pub, keys)) (I : Finset Nat) (hI : I.card + 2 ≤ t.toNat) (h7 : I.card ≤ 7)
    (hid : ∀ x ∈ I, x ∈ keys.map KeyShare.id) (root' : Prv) (hr : ¬ ellL ∣ kL root'.key) :
    Compatible C P n t keys I root' := by
  classical
  obtain ⟨f, hf0, hfd, hfc, h2, h3⟩ := split_poly hl hcan h
  have hid32 : ∀ x ∈ I, 1 ≤ x ∧ x < 2 ^ 32 := by
    intro x hx
    have := hid x hx
    rw [h2] at this
    have hn := n.toNat_lt
    have := shareIds_mem this
    exact ⟨this.1, by omega⟩
  have hid' : ∀ x ∈ I, 1 ≤ x ∧ x < 2 ^ 64 := fun x hx => ⟨(hid32 x hx).1, by have := (hid32 x hx).2; omega⟩
  obtain ⟨g1, g2, g3⟩ := shifted_spec f I ((kL root'.key : Nat) : F) (t.toNat - 1) hfd (by omega) hid'
  generalize hg : shifted f I ((kL root'.key : Nat) : F) = g at g1 g2 g3
  -- coefficients above |I| + 1 are those of `f`
  have hhigh : ∀ j, I.card < j → g.coeff j = f.coeff j := by
    intro j hj
    rw [← hg]; unfold shifted
    rw [coeff_add, coeff_C_mul, coeff_eq_zero_of_natDegree_lt (Nat.lt_of_le_of_lt (vanish_natDegree I) hj), mul_zero, add_zero]
  obtain ⟨lam, hlam⟩ : ∃ lam : F, lam ∉ (Finset.range (I.card + 1)).image (fun j => -g.coeff (j + 1) / (vanish I).coeff j) := by
    refine Classical.byContradiction fun hno => ?_
    have hall : ∀ x : F, x ∈ (Finset.range (I.card + 1)).image (fun j => -g.coeff (j + 1) / (vanish I).coeff j) := by
      intro x
      refine Classical.byContradiction fun hx => hno ⟨x, hx⟩
    have hsub : (Finset.range 9).image (fun i : Nat => (i : F)) ⊆
        (Finset.range (I.card + 1)).image (fun j => -g.coeff (j + 1) / (vanish I).coeff j) := fun x _ => hall x
    have hc := Finset.card_le_card hsub
    rw [Finset.card_image_of_injOn] at hc
    · have := Nat.le_trans hc Finset.card_image_le
      simp at this
      omega
    · intro x hx y hy e
      have hx' : x < 9 := by simpa using hx
      have hy' : y < 9 := by simpa using hy
      exact id_inj (by omega) (by omega) e
  refine compatible_of_poly C P h2 h3 root' hr (g + Polynomial.C lam * (X * vanish I)) ?_ ?_ ?_ ?_
  · simp [g1]
  · refine Nat.le_trans (natDegree_add_le _ _) (Nat.max_le.mpr ⟨g2, ?_⟩)
    refine Nat.le_trans (natDegree_C_mul_le _ _) (Nat.le_trans natDegree_mul_le ?_)
    exact Nat.le_trans (Nat.add_le_add natDegree_X_le (vanish_natDegree I)) (by omega)
  · intro j hj
    rw [coeff_add, coeff_C_mul, coeff_X_mul]
    by_cases hjI : j ≤ I.card
    · intro hz
      have hv := vanish_coeff_ne I hid32 h7 j hjI
      apply hlam
      refine Finset.mem_image.mpr ⟨j, Finset.mem_range.mpr (by omega), ?_⟩
      field_simp
      linear_combination -hz
    · rw [coeff_eq_zero_of_natDegree_lt (Nat.lt_of_le_of_lt (vanish_natDegree I) (by omega : I.card < j)), mul_zero, add_zero,
        hhigh (j + 1) (by omega)]
      exact hfc j hj
  · intro x hx
    rw [eval_add, eval_mul, eval_mul, vanish_root hx (id_ne_zero (hid' x hx).1 (hid' x hx).2), mul_zero, mul_zero, add_zero,
      g3 x hx]

/-- The hypotheses are met: a key dealt to four holders with threshold 3, of which one or two are observed. -/
example : ∃ pub keys, shamirSplit toyCurve toyPrims ⟨5 :: List.replicate 63 0, []⟩ 4 3
      [7 :: List.replicate 31 0, 9 :: List.replicate 31 0] = .ok (pub, keys) ∧ keys.map KeyShare.id = [1, 2, 3, 4] := by
  obtain ⟨pub, keys, h, -, hid, -⟩ := shamirSplit_spec toyCurve toyPrims ⟨5 :: List.replicate 63 0, []⟩ 4 3
    [7 :: List.replicate 31 0, 9 :: List.replicate 31 0] rfl (by decide +kernel) (by decide +kernel)
  exact ⟨pub, keys, h, by rw [hid]; decide⟩

example : ∀ c ∈ ([7 :: List.replicate 31 0, 9 :: List.replicate 31 0] : List Bytes), Canon c := by
  unfold Canon; decide +kernel

end Cardano.Tss
