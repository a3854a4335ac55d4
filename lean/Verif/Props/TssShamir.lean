import Verif.Lemmas.TssShamir
import Verif.Props.Tss

/-! # C35, C36, C39, C40: Shamir sharing -/

namespace Cardano.Tss

open Cardano Cardano.Ed Cardano.Bip32 Cardano.Spec.Bip32 Cardano.Spec.Tss Polynomial

theorem shareIds_eq (n : UInt32) : shareIds n = if n.toNat = 2 ^ 32 - 1 then [] else List.range' 1 n.toNat := by
  unfold shareIds
  have hlt := n.toNat_lt
  rw [UInt32.toNat_add]
  show List.range' 1 ((n.toNat + 1) % 2 ^ 32 - 1) = _
  by_cases h : n.toNat = 2 ^ 32 - 1
  · rw [if_pos h, h]; rfl
  · rw [if_neg h, Nat.mod_eq_of_lt (by omega), Nat.add_sub_cancel]

theorem shareIds_mem {n : UInt32} {x : Nat} (h : x ∈ shareIds n) : 1 ≤ x ∧ x ≤ n.toNat ∧ x < 2 ^ 64 := by
  rw [shareIds_eq] at h
  have hlt := n.toNat_lt
  split at h
  · simp at h
  · rw [List.mem_range'_1] at h; omega

theorem shareIds_nodup (n : UInt32) : (shareIds n).Nodup := List.nodup_range'

theorem keyScalar_zero_iff (k : Prv) : isZero (keyScalar k) = true ↔ ellL ∣ kL k.key := by
  rw [isZero_iff (canon_keyScalar _), sv_keyScalar, dvd_iff]

/-- What a Shamir split returns. -/
theorem shamirSplit_spec (C : Curve) (P : Prims) (root : Prv) (n t : UInt32) (coefs : List Bytes)
    (hl : coefs.length = t.toNat - 1) (h0 : ¬ ellL ∣ kL root.key) (hc : ∀ c ∈ coefs, isZero c = false) :
    ∃ pub keys, shamirSplit C P root n t coefs = .ok (pub, keys) ∧ root.publicKey C = .ok pub ∧
      keys.map KeyShare.id = shareIds n ∧
      ∀ k ∈ keys, k.key.WF ∧ sv (keyScalar k.key) = (ofCoeffs ((kL root.key : F) :: coefs.map sv)).eval (k.id : F) ∧
        k.key = extKey P (keyScalar k.key) := by
  obtain ⟨keys, h1, h2, h3⟩ := shamirShares_spec P (keyScalar root) (canon_keyScalar _) t coefs hl (shareIds n)
    (fun x hx => (shareIds_mem hx).2.2)
  refine ⟨⟨C.enc (kL root.key • C.B), root.cc⟩, keys, ?_, publicKey_of h0, h2, ?_⟩
  · unfold shamirSplit
    have hz : isZero (keyScalar root) = false := by
      cases hz : isZero (keyScalar root) with
      | false => rfl
      | true => exact absurd ((keyScalar_zero_iff root).mp hz) h0
    have hcs : coefs.any isZero = false := by
      cases hcs : coefs.any isZero with
      | false => rfl
      | true =>
        obtain ⟨c, hm, he⟩ := List.any_eq_true.mp hcs
        rw [hc c hm] at he; exact absurd he (by simp)
    simp only [hz, hcs, Bool.false_eq_true, if_false, h1, Out.ok_bind, publicKey_of h0]
    rfl
  · rw [← sv_keyScalar]; exact h3

theorem shamirSplit_ok {C : Curve} {P : Prims} {root : Prv} {n t : UInt32} {coefs : List Bytes} {r : Pub × List KeyShare}
    (h : shamirSplit C P root n t coefs = .ok r) : ¬ ellL ∣ kL root.key ∧ ∀ c ∈ coefs, isZero c = false := by
  unfold shamirSplit at h
  dsimp only at h
  by_cases h1 : isZero (keyScalar root) = true
  · rw [if_pos h1] at h; exact absurd h (by simp)
  · rw [if_neg h1] at h
    by_cases h2 : coefs.any isZero = true
    · rw [if_pos h2] at h; exact absurd h (by simp)
    · refine ⟨fun hd => h1 ((keyScalar_zero_iff root).mpr hd), fun c hc => ?_⟩
      cases hz : isZero c with
      | false => rfl
      | true => exact absurd (List.any_eq_true.mpr ⟨c, hc, hz⟩) h2

/-- **C40** (Shamir): shares have ids 1, …, n — except for n = 2^32 − 1, where the loop bound
wraps to 0 and no share is dealt at all. -/
theorem C40_shamir_ids_partial (C : Curve) (P : Prims) (root : Prv) (n t : UInt32) (coefs : List Bytes)
    (hl : coefs.length = t.toNat - 1) (pub : Pub) (keys : List KeyShare)
    (h : shamirSplit C P root n t coefs = .ok (pub, keys)) :
    (n.toNat < 2 ^ 32 - 1 → keys.map KeyShare.id = List.range' 1 n.toNat) ∧
    (n.toNat = 2 ^ 32 - 1 → keys = []) := by
  obtain ⟨h0, hc⟩ := shamirSplit_ok h
  obtain ⟨pub', keys', h1, _, h2, _⟩ := shamirSplit_spec C P root n t coefs hl h0 hc
  rw [h] at h1
  obtain ⟨rfl, rfl⟩ := Prod.mk.inj (Out.ok.inj h1)
  rw [shareIds_eq] at h2
  refine ⟨fun hn => by rw [h2, if_neg (by omega)], fun hn => ?_⟩
  rw [if_pos hn] at h2
  exact List.map_eq_nil_iff.mp h2

/-- **C40**: a Shamir split throws exactly for a root scalar or a coefficient equal to zero. -/
theorem C40_shamir_rejects (C : Curve) (P : Prims) (root : Prv) (n t : UInt32) (coefs : List Bytes)
    (hl : coefs.length = t.toNat - 1) :
    (ellL ∣ kL root.key ∨ (∃ c ∈ coefs, isZero c = true) → shamirSplit C P root n t coefs = .throw .invalidArgument) ∧
    (¬ ellL ∣ kL root.key → (∀ c ∈ coefs, isZero c = false) →
      ∃ pub keys, shamirSplit C P root n t coefs = .ok (pub, keys) ∧ root.publicKey C = .ok pub) := by
  refine ⟨fun h => ?_, fun h0 hc => ?_⟩
  · unfold shamirSplit
    dsimp only
    by_cases h1 : isZero (keyScalar root) = true
    · rw [if_pos h1]
    · rw [if_neg h1]
      rcases h with h | ⟨c, hm, hz⟩
      · exact absurd ((keyScalar_zero_iff root).mpr h) h1
      · rw [if_pos (List.any_eq_true.mpr ⟨c, hm, hz⟩)]
  · obtain ⟨pub, keys, h1, h2, _⟩ := shamirSplit_spec C P root n t coefs hl h0 hc
    exact ⟨pub, keys, h1, h2⟩

/-! ### C39 -/

theorem hasAdjacent_iff : ∀ l : List Nat, l.Pairwise (· ≤ ·) → (hasAdjacent l = true ↔ ¬ l.Nodup) := by
  intro l
  induction l with
  | nil => intro _; simp [hasAdjacent]
  | cons a l ih =>
    intro hs
    cases l with
    | nil => simp [hasAdjacent]
    | cons b rest =>
      have hs' := (List.pairwise_cons.mp hs)
      rw [hasAdjacent, Bool.or_eq_true, ih hs'.2, beq_iff_eq]
      constructor
      · rintro (rfl | h)
        · simp
        · exact fun h' => h (List.nodup_cons.mp h').2
      · intro h
        by_cases hb : b = a
        · exact .inl hb
        · right
          intro hn
          refine h (List.nodup_cons.mpr ⟨?_, hn⟩)
          intro hm
          rcases List.mem_cons.mp hm with e | hm
          · exact hb e.symm
          · have h1 := hs'.1 b (by simp)
            have h2 := (List.pairwise_cons.mp hs'.2).1 a hm
            omega

theorem sorted_ids (ids : List Nat) : ids.mergeSort.Perm ids ∧ ids.mergeSort.Pairwise (· ≤ ·) := by
  refine ⟨List.mergeSort_perm ids _, ?_⟩
  have := List.pairwise_mergeSort (le := fun a b : Nat => decide (a ≤ b)) (by intro a b c; simp; omega) (by intro a b; simp; omega) ids
  exact this.imp (by simp)

/-- **C39**: the call throws exactly if an id is 0 or repeated; otherwise it returns one
canonical 32-byte coefficient per id, and these interpolate at 0. -/
theorem C39_computeLagrange (ids : List Nat) (h : ∀ x ∈ ids, x < 2 ^ 64) :
    (0 ∈ ids ∨ ¬ ids.Nodup → computeLagrange ids = .throw .invalidArgument) ∧
    (0 ∉ ids → ids.Nodup → ∃ cs, computeLagrange ids = .ok cs ∧ (∀ c ∈ cs, Canon c) ∧
      InterpolatesAtZero ids (cs.map sv)) := by
  obtain ⟨hp, hs⟩ := sorted_ids ids
  unfold computeLagrange
  cases hm : ids.mergeSort with
  | nil =>
    have hnil : ids = [] := by rw [hm] at hp; exact hp.nil_eq.symm
    subst hnil
    refine ⟨by simp, fun _ _ => ⟨[], rfl, by simp, rfl, ?_⟩⟩
    intro f hf
    have hf0 : f = 0 := by
      rw [List.length_nil, Nat.cast_zero] at hf
      exact Polynomial.degree_eq_bot.mp (by
        by_contra hne
        have := Polynomial.zero_le_degree_iff.mpr (fun h0 => hne (Polynomial.degree_eq_bot.mpr h0))
        exact absurd hf (not_lt.mpr this))
    subst hf0; simp
  | cons x rest =>
    rw [hm] at hp hs
    simp only []
    have hmem0 : 0 ∈ ids ↔ x = 0 := by
      rw [← hp.mem_iff]
      constructor
      · intro h0
        rcases List.mem_cons.mp h0 with e | h0
        · exact e.symm
        · have := (List.pairwise_cons.mp hs).1 0 h0; omega
      · rintro rfl; simp
    have hadj := hasAdjacent_iff _ hs
    rw [hp.nodup_iff] at hadj
    refine ⟨?_, ?_⟩
    · intro hbad
      by_cases hx : x = 0
      · simp [hx]
      · rcases hbad with h0 | hd
        · exact absurd (hmem0.mp h0) hx
        · simp [hx, hadj.mpr hd]
    · intro h0 hn
      have hx : x ≠ 0 := fun e => h0 (hmem0.mpr e)
      have ha : hasAdjacent (x :: rest) = false := by
        cases ha : hasAdjacent (x :: rest) with
        | false => rfl
        | true => exact absurd hn (hadj.mp ha)
      simp only [beq_iff_eq, hx, if_false, ha, Bool.false_eq_true]
      exact lagrange_ok h hn

/-! ### C35 -/

theorem zip_shares (f : F[X]) : ∀ (cs : List Bytes) (ks : List KeyShare),
    (∀ k ∈ ks, sv (keyScalar k.key) = f.eval (k.id : F)) →
    (List.zipWith (fun c k => sv c * sv (keyScalar k.key)) cs ks).sum =
      (List.zipWith (fun (x : Nat) wi => wi * f.eval (x : F)) (ks.map KeyShare.id) (cs.map sv)).sum := by
  intro cs
  induction cs with
  | nil => intro ks _; simp
  | cons c cs ih =>
    intro ks h
    cases ks with
    | nil => simp
    | cons k ks =>
      simp only [List.zipWith_cons_cons, List.map_cons, List.sum_cons]
      rw [ih ks (fun k hk => h k (by simp [hk])), h k (by simp)]

/-- Shares of one polynomial `f`, distinct nonzero ids determined by position: reconstruction
from enough of them gives `f(0)`. -/
theorem reconstruct_poly (P : Prims) (f : F[X]) (t : UInt32) (hf : f.degree < t.toNat) (sub : List KeyShare)
    (hid : ∀ k ∈ sub, k.id ≠ 0 ∧ k.id < 2 ^ 64) (hval : ∀ k ∈ sub, sv (keyScalar k.key) = f.eval (k.id : F))
    (hdet : ∀ a ∈ sub, ∀ b ∈ sub, a.id = b.id → a.key = b.key)
    (hd : t.toNat ≤ (sub.map KeyShare.id).dedup.length) :
    ∃ y, reconstruct P sub t = .ok (extKey P y) ∧ Canon y ∧ sv y = f.eval 0 := by
  obtain ⟨h1, h2, h3, _, h5⟩ := filterShares_spec sub [] (by simp) (by simp)
  have hsub : ∀ k ∈ filterShares sub [], k ∈ sub := fun k hk => (h3 k hk).resolve_left (by simp)
  have hnd : ((filterShares sub []).map KeyShare.id).Nodup := by
    rw [List.nodup_iff_pairwise_ne, List.pairwise_map]
    refine List.Pairwise.imp_of_mem ?_ h2
    intro a b ha hb hne he
    exact hne ⟨he, by rw [hdet a (hsub a ha) b (hsub b hb) he]⟩
  have hlen : t.toNat ≤ (filterShares sub []).length := by
    refine Nat.le_trans hd ?_
    rw [← List.length_map (f := KeyShare.id) (as := filterShares sub [])]
    apply List.Subperm.length_le
    refine List.subperm_of_subset (List.nodup_dedup _) ?_
    intro x hx
    obtain ⟨k, hk, rfl⟩ := List.mem_map.mp (List.mem_dedup.mp hx)
    obtain ⟨k', hk', hs⟩ := h5 k hk (hid k hk).1
    exact List.mem_map.mpr ⟨k', hk', hs.1⟩
  obtain ⟨cs, c1, c2, c3⟩ := lagrange_ok (ids := (filterShares sub []).map KeyShare.id) (by
    intro x hx
    obtain ⟨k, hk, rfl⟩ := List.mem_map.mp hx
    exact (hid k (hsub k hk)).2) hnd
  obtain ⟨w1, w2⟩ := weightedSum_spec cs (filterShares sub []) zero c2 canon_zero
  refine ⟨_, ?_, w1, ?_⟩
  · unfold reconstruct
    dsimp only
    rw [if_neg (by omega), c1]; rfl
  · rw [w2, sv_zero, zero_add, zip_shares f cs _ (fun k hk => hval k (hsub k hk))]
    apply c3.2
    refine lt_of_lt_of_le hf ?_
    rw [List.length_map]; exact_mod_cast hlen

/-- **C35**: any list of dealt shares — any order, any repetitions — with at least `t`
different ids reconstructs the root scalar; the dealer's composite keys are the root's. -/
theorem C35_reconstruct (C : Curve) (P : Prims) (root : Prv) (n t : UInt32) (ht : 1 ≤ t.toNat) (coefs : List Bytes)
    (hl : coefs.length = t.toNat - 1) (pub : Pub) (keys : List KeyShare)
    (h : shamirSplit C P root n t coefs = .ok (pub, keys)) (sub : List KeyShare) (hsub : ∀ k ∈ sub, k ∈ keys)
    (hd : t.toNat ≤ (sub.map KeyShare.id).dedup.length) :
    ∃ k q, (Dealer.mk n t .shamir).compositeSigningKey C P sub = .ok k ∧ kL k.key = kL root.key % ellL ∧
      (Dealer.mk n t .shamir).compositeKey C P sub = .ok q ∧ q.key = pub.key := by
  obtain ⟨h0, hc⟩ := shamirSplit_ok h
  obtain ⟨pub', keys', h1, hpub, h2, h3⟩ := shamirSplit_spec C P root n t coefs hl h0 hc
  rw [h] at h1
  obtain ⟨rfl, rfl⟩ := Prod.mk.inj (Out.ok.inj h1)
  have hnd : (keys.map KeyShare.id).Nodup := by rw [h2]; exact shareIds_nodup n
  obtain ⟨y, e1, e2, e3⟩ := reconstruct_poly P (ofCoeffs ((kL root.key : F) :: coefs.map sv)) t (by
      refine lt_of_lt_of_le (ofCoeffs_degree _) ?_
      have : ((kL root.key : F) :: coefs.map sv).length ≤ t.toNat := by simp [hl]; omega
      exact_mod_cast this) sub
    (fun k hk => by
      have : k.id ∈ shareIds n := by rw [← h2]; exact List.mem_map_of_mem (hsub k hk)
      have := shareIds_mem this
      exact ⟨by omega, this.2.2⟩)
    (fun k hk => (h3 k (hsub k hk)).2.1)
    (fun a ha b hb he => by rw [List.inj_on_of_nodup_map hnd (hsub a ha) (hsub b hb) he]) hd
  rw [ofCoeffs_eval_zero] at e3
  have hlen : ¬ sub.length < t.toNat := by
    have h4 : (sub.map KeyShare.id).dedup.length ≤ (sub.map KeyShare.id).length := (List.dedup_sublist _).length_le
    rw [List.length_map] at h4; omega
  have hk : kL (extKey P y).key = kL root.key % ellL := by
    unfold kL
    rw [(extKey_scalar P e2).2.1, ← sv_val e2, e3, ZMod.val_natCast]; rfl
  have hsk : (Dealer.mk n t .shamir).compositeSigningKey C P sub = .ok (extKey P y) := by
    unfold Dealer.compositeSigningKey
    simp only [hlen, if_false, e1]
  refine ⟨extKey P y, ⟨C.enc (kL (extKey P y).key • C.B), (extKey P y).cc⟩, hsk, hk, ?_, ?_⟩
  · unfold Dealer.compositeKey
    simp only [hlen, if_false, hsk, Out.ok_bind]
    refine publicKey_of ?_
    rw [hk]
    exact fun hdv => h0 ((Nat.dvd_mod_iff (dvd_refl _)).mp hdv)
  · obtain ⟨_, rfl⟩ := publicKey_ok hpub
    show C.enc _ = C.enc _
    rw [hk, mod_ell_smul]

/-- **C35**: with fewer than `t` different usable shares (whatever they contain) it throws. -/
theorem C35_too_few (C : Curve) (P : Prims) (n t : UInt32) (sub : List KeyShare)
    (hd : (((sub.filter (fun k => k.id ≠ 0)).map (fun k => (k.id, k.key.key))).dedup).length < t.toNat) :
    (Dealer.mk n t .shamir).compositeSigningKey C P sub = .throw .invalidArgument ∧
    (Dealer.mk n t .shamir).compositeKey C P sub = .throw .invalidArgument := by
  obtain ⟨h1, h2, h3, _, _⟩ := filterShares_spec sub [] (by simp) (by simp)
  have hlen : (filterShares sub []).length < t.toNat := by
    refine Nat.lt_of_le_of_lt ?_ hd
    rw [← List.length_map (f := fun k : KeyShare => (k.id, k.key.key)) (as := filterShares sub [])]
    apply List.Subperm.length_le
    apply List.subperm_of_subset
    · rw [List.nodup_iff_pairwise_ne, List.pairwise_map]
      refine h2.imp ?_
      intro a b hne he
      exact hne ⟨congrArg Prod.fst he, congrArg Prod.snd he⟩
    · intro x hx
      obtain ⟨k, hk, rfl⟩ := List.mem_map.mp hx
      rw [List.mem_dedup]
      exact List.mem_map.mpr ⟨k, List.mem_filter.mpr ⟨(h3 k hk).resolve_left (by simp), by simpa using h1 k hk⟩, rfl⟩
  have hr : (Dealer.mk n t .shamir).compositeSigningKey C P sub = .throw .invalidArgument := by
    unfold Dealer.compositeSigningKey
    by_cases hs : sub.length < t.toNat
    · simp [hs]
    · simp only [hs, if_false]
      unfold reconstruct
      dsimp only
      rw [if_pos hlen]
  refine ⟨hr, ?_⟩
  unfold Dealer.compositeKey
  by_cases hs : sub.length < t.toNat
  · simp [hs]
  · simp only [hs, if_false, hr]; rfl

/-- **C35**: two shares with the same id but different keys make reconstruction throw instead
of returning a wrong key. -/
theorem C35_conflicting_shares (P : Prims) (t : UInt32) (sub : List KeyShare) (hid : ∀ k ∈ sub, k.id < 2 ^ 64)
    (a b : KeyShare) (ha : a ∈ sub) (hb : b ∈ sub) (h0 : a.id ≠ 0) (he : a.id = b.id) (hne : a.key.key ≠ b.key.key) :
    reconstruct P sub t = .throw .invalidArgument := by
  obtain ⟨h1, h2, h3, _, h5⟩ := filterShares_spec sub [] (by simp) (by simp)
  unfold reconstruct
  dsimp only
  by_cases hlen : (filterShares sub []).length < t.toNat
  · rw [if_pos hlen]
  · rw [if_neg hlen, lagrange_dup]
    · rfl
    · intro x hx
      obtain ⟨k, hk, rfl⟩ := List.mem_map.mp hx
      exact hid k ((h3 k hk).resolve_left (by simp))
    · intro hn
      obtain ⟨a', ha', ea⟩ := h5 a ha h0
      obtain ⟨b', hb', eb⟩ := h5 b hb (by rw [← he]; exact h0)
      have := List.inj_on_of_nodup_map hn ha' hb' (by rw [ea.1, eb.1, he])
      rw [this] at ea
      exact hne (by rw [← ea.2, eb.2])

/-! ### C36 -/

/-- The polynomial that is 1 at 0 and vanishes on `I`. -/
noncomputable def vanish (I : Finset Nat) : F[X] := ∏ x ∈ I, (1 - C ((x : F)⁻¹) * X)

theorem vanish_zero (I : Finset Nat) : (vanish I).eval 0 = 1 := by
  unfold vanish; rw [eval_prod]; apply Finset.prod_eq_one; intro x _; simp

theorem vanish_root {I : Finset Nat} {x : Nat} (hx : x ∈ I) (h0 : (x : F) ≠ 0) : (vanish I).eval (x : F) = 0 := by
  unfold vanish; rw [eval_prod]
  apply Finset.prod_eq_zero hx
  simp [inv_mul_cancel₀ h0]

theorem vanish_natDegree (I : Finset Nat) : (vanish I).natDegree ≤ I.card := by
  unfold vanish
  refine Nat.le_trans (natDegree_prod_le _ _) ?_
  refine Nat.le_trans (Finset.sum_le_sum (g := fun _ => 1) ?_) (by simp)
  intro x _
  refine Nat.le_trans (natDegree_sub_le _ _) ?_
  rw [natDegree_one, Nat.max_eq_right (Nat.zero_le _)]
  exact Nat.le_trans (natDegree_C_mul_le _ _) natDegree_X_le

theorem id_ne_zero {x : Nat} (h1 : 1 ≤ x) (h2 : x < 2 ^ 64) : (x : F) ≠ 0 := by
  intro h
  rw [← dvd_iff] at h
  have := Nat.le_of_dvd (by omega) h
  have hb : (2 : Nat) ^ 64 < ellL := by decide +kernel
  omega

/-- Coefficients of a polynomial of degree below `m + 1`, without the constant one. -/
noncomputable def tailBytes (g : F[X]) (m : Nat) : List Bytes := (List.range m).map (fun j => le32 ((g.coeff (j + 1)).val % ellL))

theorem tailBytes_sv (g : F[X]) (m : Nat) : (tailBytes g m).map sv = (List.range m).map (fun j => g.coeff (j + 1)) := by
  unfold tailBytes
  rw [List.map_map]
  apply List.map_congr_left
  intro j _
  show sv (le32 _) = _
  rw [sv_le32mod, ZMod.natCast_zmod_val]

theorem ofCoeffs_tail (g : F[X]) (m : Nat) (hd : g.natDegree ≤ m) : ofCoeffs (g.eval 0 :: (tailBytes g m).map sv) = g := by
  ext j
  rw [ofCoeffs_coeff, tailBytes_sv]
  cases j with
  | zero => rw [List.getD_cons_zero, coeff_zero_eq_eval_zero]
  | succ j =>
    rw [List.getD_cons_succ, List.getD_eq_getElem?_getD, List.getElem?_map]
    by_cases hj : j < m
    · rw [List.getElem?_range hj]; rfl
    · rw [List.getElem?_eq_none (by simpa using hj)]
      exact (coeff_eq_zero_of_natDegree_lt (by omega)).symm

/-- The polynomial with secret `s'` that agrees with `f` on `I`. -/
noncomputable def shifted (f : F[X]) (I : Finset Nat) (s' : F) : F[X] := f + C (s' - f.eval 0) * vanish I

theorem shifted_spec (f : F[X]) (I : Finset Nat) (s' : F) (m : Nat) (hf : f.natDegree ≤ m) (hI : I.card ≤ m)
    (hid : ∀ x ∈ I, 1 ≤ x ∧ x < 2 ^ 64) :
    (shifted f I s').eval 0 = s' ∧ (shifted f I s').natDegree ≤ m ∧ ∀ x ∈ I, (shifted f I s').eval (x : F) = f.eval (x : F) := by
  unfold shifted
  refine ⟨?_, ?_, ?_⟩
  · rw [eval_add, eval_mul, eval_C, vanish_zero]; ring
  · refine Nat.le_trans (natDegree_add_le _ _) (Nat.max_le.mpr ⟨hf, ?_⟩)
    exact Nat.le_trans (natDegree_C_mul_le _ _) (Nat.le_trans (vanish_natDegree I) hI)
  · intro x hx
    rw [eval_add, eval_mul, vanish_root hx (id_ne_zero (hid x hx).1 (hid x hx).2)]; ring

theorem ofCoeffs_natDegree (c : F) (cs : List F) : (ofCoeffs (c :: cs)).natDegree ≤ cs.length := by
  rw [natDegree_le_iff_coeff_eq_zero]
  intro N hN
  rw [ofCoeffs_coeff, List.getD_eq_getElem?_getD, List.getElem?_eq_none (by simpa using hN)]; rfl

/-- **C36** (all polynomials of degree < t): the shares of any set `I` of fewer than `t`
ids are compatible with every secret — for every `s'` there are coefficients with which the
dealer's evaluation loop produces the very same shares on `I`. -/
theorem C36_any_secret_possible (t : UInt32) (ht : 1 ≤ t.toNat) (s s' : Bytes) (hs : Canon s) (hs' : Canon s')
    (coefs : List Bytes) (hl : coefs.length = t.toNat - 1) (I : Finset Nat) (hI : I.card < t.toNat)
    (hid : ∀ x ∈ I, 1 ≤ x ∧ x < 2 ^ 64) :
    ∃ coefs', coefs'.length = t.toNat - 1 ∧ (∀ c ∈ coefs', Canon c) ∧
      ∀ x ∈ I, evalLoop coefs' x (t.toNat - 1) 1 s' = evalLoop coefs x (t.toNat - 1) 1 s := by
  generalize hf : ofCoeffs (sv s :: coefs.map sv) = f
  obtain ⟨g1, g2, g3⟩ := shifted_spec f I (sv s') (t.toNat - 1) (by
    rw [← hf, ← hl]; have := ofCoeffs_natDegree (sv s) (coefs.map sv); rwa [List.length_map] at this) (by omega) hid
  refine ⟨tailBytes (shifted f I (sv s')) (t.toNat - 1), by simp [tailBytes], ?_, ?_⟩
  · intro c hc
    obtain ⟨j, _, rfl⟩ := List.mem_map.mp hc
    exact canon_le32mod _
  · intro x hx
    obtain ⟨y, h1, h2, h3⟩ := evalLoop_share (hid x hx).2 coefs s hs
    obtain ⟨y', h1', h2', h3'⟩ := evalLoop_share (hid x hx).2 (tailBytes (shifted f I (sv s')) (t.toNat - 1)) s' hs'
    have htl := ofCoeffs_tail (shifted f I (sv s')) (t.toNat - 1) g2
    rw [g1] at htl
    rw [htl, g3 x hx] at h3'
    rw [hf] at h3
    have hlen : (tailBytes (shifted f I (sv s')) (t.toNat - 1)).length = t.toNat - 1 := by simp [tailBytes]
    rw [hlen] at h1'
    rw [hl] at h1
    rw [h1, h1', canon_inj h2 h2' (by rw [h3, h3'])]

/-- **C36** for the dealer itself, which never uses zero coefficients: for the shares on any
set `I` of fewer than `t` ids, all but at most `t − 1` of the possible root scalars are
compatible with exactly these shares. -/
theorem C36_nearly_perfect_partial (C : Curve) (P : Prims) (root : Prv) (n t : UInt32) (ht : 1 ≤ t.toNat) (coefs : List Bytes)
    (hl : coefs.length = t.toNat - 1) (hcan : ∀ c ∈ coefs, Canon c) (pub : Pub) (keys : List KeyShare)
    (h : shamirSplit C P root n t coefs = .ok (pub, keys)) (I : Finset Nat) (hI : I.card < t.toNat)
    (hid : ∀ x ∈ I, 1 ≤ x ∧ x ≤ n.toNat) :
    ∃ excluded : Finset F, excluded.card ≤ t.toNat - 1 ∧
      ∀ root' : Prv, ¬ ellL ∣ kL root'.key → ((kL root'.key : Nat) : F) ∉ excluded →
        ∃ coefs' pub' keys', coefs'.length = t.toNat - 1 ∧ (∀ c ∈ coefs', Canon c) ∧
          shamirSplit C P root' n t coefs' = .ok (pub', keys') ∧ ∀ k ∈ keys, k.id ∈ I → k ∈ keys' := by
  obtain ⟨h0, hc⟩ := shamirSplit_ok h
  obtain ⟨pub', keys', h1, _, h2, h3⟩ := shamirSplit_spec C P root n t coefs hl h0 hc
  rw [h] at h1
  obtain ⟨rfl, rfl⟩ := Prod.mk.inj (Out.ok.inj h1)
  generalize hf : ofCoeffs (((kL root.key : Nat) : F) :: coefs.map sv) = f at h3
  have hn := n.toNat_lt
  have hid' : ∀ x ∈ I, 1 ≤ x ∧ x < 2 ^ 64 := fun x hx => ⟨(hid x hx).1, by have := (hid x hx).2; omega⟩
  have hf0 : f.eval 0 = ((kL root.key : Nat) : F) := by rw [← hf, ofCoeffs_eval_zero]
  have hfc : ∀ j < t.toNat - 1, f.coeff (j + 1) ≠ 0 := by
    intro j hj
    rw [← hf, ofCoeffs_coeff, List.getD_cons_succ, List.getD_eq_getElem?_getD, List.getElem?_map,
      List.getElem?_eq_getElem (by omega)]
    simp only [Option.map_some, Option.getD_some]
    intro hz
    have hm : coefs[j]'(by omega) ∈ coefs := List.getElem_mem _
    have := (isZero_iff (hcan _ hm)).mpr hz
    rw [hc _ hm] at this; exact absurd this (by simp)
  refine ⟨(Finset.range (t.toNat - 1)).image (fun j => f.eval 0 - f.coeff (j + 1) / (vanish I).coeff (j + 1)),
    Nat.le_trans Finset.card_image_le (by simp), ?_⟩
  intro root' hr0 hex
  obtain ⟨g1, g2, g3⟩ := shifted_spec f I ((kL root'.key : Nat) : F) (t.toNat - 1) (by
    rw [← hf, ← hl]; have := ofCoeffs_natDegree (((kL root.key : Nat) : F)) (coefs.map sv); rwa [List.length_map] at this) (by omega) hid'
  generalize hg : shifted f I ((kL root'.key : Nat) : F) = g at g1 g2 g3
  have hgc : ∀ j < t.toNat - 1, g.coeff (j + 1) ≠ 0 := by
    intro j hj hz
    rw [← hg] at hz
    unfold shifted at hz
    rw [coeff_add, coeff_C_mul] at hz
    by_cases hv : (vanish I).coeff (j + 1) = 0
    · rw [hv, mul_zero, add_zero] at hz; exact hfc j hj hz
    · apply hex
      refine Finset.mem_image.mpr ⟨j, Finset.mem_range.mpr hj, ?_⟩
      field_simp
      linear_combination -hz
  have hlen : (tailBytes g (t.toNat - 1)).length = t.toNat - 1 := by simp [tailBytes]
  have hcan' : ∀ c ∈ tailBytes g (t.toNat - 1), Canon c := by
    intro c hc
    obtain ⟨j, _, rfl⟩ := List.mem_map.mp hc
    exact canon_le32mod _
  obtain ⟨pub2, keys2, k1, _, k2, k3⟩ := shamirSplit_spec C P root' n t (tailBytes g (t.toNat - 1)) hlen hr0 (by
    intro c hc
    obtain ⟨j, hj, rfl⟩ := List.mem_map.mp hc
    cases hz : isZero (le32 ((g.coeff (j + 1)).val % ellL)) with
    | false => rfl
    | true =>
      have := (isZero_iff (canon_le32mod _)).mp hz
      rw [sv_le32mod, ZMod.natCast_zmod_val] at this
      exact absurd this (hgc j (List.mem_range.mp hj)))
  have htl := ofCoeffs_tail g (t.toNat - 1) g2
  rw [g1] at htl
  rw [htl] at k3
  refine ⟨_, pub2, keys2, hlen, hcan', k1, ?_⟩
  intro k hk hkI
  have : k.id ∈ keys2.map KeyShare.id := by rw [k2, ← h2]; exact List.mem_map_of_mem hk
  obtain ⟨k', hk', hkid⟩ := List.mem_map.mp this
  have e1 : keyScalar k'.key = keyScalar k.key := by
    apply canon_inj (canon_keyScalar _) (canon_keyScalar _)
    rw [(k3 k' hk').2.1, (h3 k hk).2.1, hkid, g3 k.id hkI]
  have e2 : k' = k := by
    cases k' with | mk i1 p1 => cases k with | mk i2 p2 =>
    simp only at hkid e1
    have a := (k3 _ hk').2.2
    have b := (h3 _ hk).2.2
    simp only at a b
    rw [hkid, a, b, e1]
  rw [← e2]; exact hk'

/-- **C36** is not perfect: with t = 2 each single share excludes one secret, its own value,
because the dealer rejects zero coefficients. -/
theorem C36_single_share_excludes_its_value (C : Curve) (P : Prims) (root : Prv) (n : UInt32) (c : Bytes) (hc : Canon c)
    (pub : Pub) (keys : List KeyShare) (h : shamirSplit C P root n 2 [c] = .ok (pub, keys)) (k : KeyShare) (hk : k ∈ keys) :
    kL k.key.key % ellL ≠ kL root.key % ellL := by
  obtain ⟨h0, hz⟩ := shamirSplit_ok h
  obtain ⟨pub', keys', h1, _, h2, h3⟩ := shamirSplit_spec C P root n 2 [c] rfl h0 hz
  rw [h] at h1
  obtain ⟨rfl, rfl⟩ := Prod.mk.inj (Out.ok.inj h1)
  have hid : k.id ∈ shareIds n := by rw [← h2]; exact List.mem_map_of_mem hk
  have hid := shareIds_mem hid
  rw [Ne, ← cast_eq_iff, ← sv_keyScalar, (h3 k hk).2.1]
  simp only [List.map_cons, List.map_nil, ofCoeffs, eval_add, eval_C, eval_mul, eval_X, eval_zero, mul_zero, add_zero]
  intro e
  have : (k.id : F) * sv c = 0 := by linear_combination e
  rcases mul_eq_zero.mp this with h' | h'
  · exact id_ne_zero hid.1 hid.2.2 h'
  · have := (isZero_iff hc).mpr h'
    rw [hz c (by simp)] at this; exact absurd this (by simp)

end Cardano.Tss
