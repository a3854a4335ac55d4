import Verif.Props.TssDealer

/-! # C88: what an incomplete set of direct (n-of-n) shares reveals -/

namespace Cardano.Tss

open Cardano Cardano.Ed Cardano.Bip32 Cardano.Spec.Bip32 Cardano.Spec.Tss

/-- What the participants outside `missing` hold. -/
def heldBy (missing : Finset Nat) (keys : List KeyShare) : List KeyShare := keys.filter (fun k => k.id ∉ missing)

/-- The sum of the scalars of some shares. -/
def scalarSum (keys : List KeyShare) : Nat := (keys.map (fun k => kL k.key.key)).sum

theorem scalarSum_append (a b : List KeyShare) : scalarSum (a ++ b) = scalarSum a + scalarSum b := by
  simp [scalarSum]

theorem scalarSum_cons (a : KeyShare) (b : List KeyShare) : scalarSum (a :: b) = kL a.key.key + scalarSum b := by
  simp [scalarSum]

theorem scalarSum_split (M : Finset Nat) (ks : List KeyShare) :
    scalarSum ks = scalarSum (heldBy M ks) + scalarSum (ks.filter (fun k => k.id ∈ M)) := by
  induction ks with
  | nil => rfl
  | cons k ks ih =>
    unfold heldBy at ih ⊢
    by_cases h : k.id ∈ M
    · rw [List.filter_cons_of_neg (by simpa using h), List.filter_cons_of_pos (by simpa using h), scalarSum_cons, scalarSum_cons, ih]
      omega
    · rw [List.filter_cons_of_pos (by simpa using h), List.filter_cons_of_neg (by simpa using h), scalarSum_cons, scalarSum_cons, ih]
      omega

theorem gen_unique (P : Prims) : ∀ (seeds : List Bytes) (i : Nat) (a b : List KeyShare),
    List.Forall₂ (fun seed k => generate P seed = .ok k.key) seeds a → a.map KeyShare.id = List.range' i seeds.length →
    List.Forall₂ (fun seed k => generate P seed = .ok k.key) seeds b → b.map KeyShare.id = List.range' i seeds.length → a = b := by
  intro seeds
  induction seeds with
  | nil => intro i a b ha _ hb _; cases ha; cases hb; rfl
  | cons s rest ih =>
    intro i a b ha hia hb hib
    cases ha with
    | cons h1 h2 =>
      cases hb with
      | cons g1 g2 =>
        rename_i x xs y ys
        rw [List.length_cons, List.range'_succ, List.map_cons] at hia hib
        obtain ⟨e1, e2⟩ := List.cons.inj hia
        obtain ⟨f1, f2⟩ := List.cons.inj hib
        rw [ih (i + 1) xs ys h2 e2 g2 f2]
        congr 1
        rw [h1] at g1
        have := Out.ok.inj g1
        cases x; cases y
        simp only at *
        subst this; rw [e1, f1]

theorem gen_sum (P : Prims) : ∀ (seeds : List Bytes) (a b : List KeyShare),
    List.Forall₂ (fun seed k => generate P seed = .ok k.key) seeds a →
    List.Forall₂ (fun seed k => generate P seed = .ok k.key) seeds b → scalarSum a = scalarSum b := by
  intro seeds a b ha
  induction ha generalizing b with
  | nil => intro hb; cases hb; rfl
  | cons h1 h2 ih =>
    intro hb
    cases hb with
    | cons g1 g2 =>
      rw [scalarSum_cons, scalarSum_cons, ih _ g2]
      rw [h1] at g1
      rw [Out.ok.inj g1]

/-- The `n - 1` generated shares, and the computed last one. -/
theorem directSplit_shape (C : Curve) (P : Prims) (rand : Nat → Bytes) (root : Prv) (n : UInt32) (hn : 1 ≤ n.toNat)
    (pub : Pub) (keys : List KeyShare) (h : directSplit C P rand root n = .ok (pub, keys)) :
    ∃ gen last, keys = gen ++ [last] ∧ last.id = n.toNat ∧ gen.map KeyShare.id = List.range' 1 (n.toNat - 1) ∧
      List.Forall₂ (fun seed k => generate P seed = .ok k.key) ((List.range (n.toNat - 1)).map rand) gen := by
  unfold directSplit at h
  obtain ⟨ss, ab, new, h1, h2, h3, h4, h5, h6, h7, h8⟩ := directLoop_spec C P ((List.range (n - 1).toNat).map rand) 0
    (keyScalar root) (mulBase C (fromUint 1)) [] 0 (canon_keyScalar _) (fun h => absurd rfl h) (fun _ => rfl)
  simp only [h1, Out.ok_bind, List.nil_append] at h
  obtain ⟨ab', _, h⟩ := Out.bind_eq_ok.mp h
  obtain ⟨cc, _, h⟩ := Out.bind_eq_ok.mp h
  obtain ⟨_, rfl⟩ := Prod.mk.inj (Out.ok.inj h)
  rw [toNat_sub_one hn] at h3 h8
  rw [List.length_map, List.length_range] at h3
  exact ⟨new, ⟨n.toNat, extKey P ss⟩, rfl, rfl, h3, h8⟩

theorem heldBy_last {gen : List KeyShare} {last : KeyShare} {n : Nat} (hn : 1 ≤ n) (hl : last.id = n)
    (hg : gen.map KeyShare.id = List.range' 1 (n - 1)) : heldBy {n} (gen ++ [last]) = gen := by
  unfold heldBy
  rw [List.filter_append]
  have h1 : gen.filter (fun k => k.id ∉ ({n} : Finset Nat)) = gen := by
    rw [List.filter_eq_self]
    intro k hk
    have : k.id ∈ List.range' 1 (n - 1) := by rw [← hg]; exact List.mem_map_of_mem hk
    rw [List.mem_range'_1] at this
    simp only [Finset.mem_singleton, decide_eq_true_eq]; omega
  rw [h1, List.filter_cons_of_neg (by simp [hl])]; simp

/-- **C88** (partial: only the share with the highest number missing; for the others the full
claim is false, see `C88_not_perfect`) If the share with the highest number is missing, the others are independent of the
key: they are compatible with every key but one — with the same random numbers the dealer would
have dealt them for any other key whose scalar is not the sum of the observed shares — and that
one can never be dealt with these shares. -/
theorem C88_last_share_missing_partial (C : Curve) (P : Prims) (d : Dealer) (hd : IsDealer d) (ha : d.alg = .direct) (rand coef : Nat → Bytes)
    (root : Prv) (pub : Pub) (keys : List KeyShare) (h : d.splitRootKey C P rand coef root = .ok (pub, keys)) (root' : Prv) :
    (kL root'.key % ellL ≠ scalarSum (heldBy {d.n.toNat} keys) % ellL →
      ∃ pub' keys', d.splitRootKey C P rand coef root' = .ok (pub', keys') ∧
        heldBy {d.n.toNat} keys' = heldBy {d.n.toNat} keys) ∧
    (kL root'.key % ellL = scalarSum (heldBy {d.n.toNat} keys) % ellL →
      ∀ rand' coef' pub' keys', d.splitRootKey C P rand' coef' root' = .ok (pub', keys') →
        heldBy {d.n.toNat} keys' ≠ heldBy {d.n.toNat} keys) := by
  obtain ⟨n, t, alg⟩ := d
  simp only at ha
  subst ha
  obtain ⟨h1, h2, h3⟩ := (isDealer_iff _).mp hd
  have h3 : t = n := h3 rfl
  subst h3
  simp only [Dealer.splitRootKey] at h ⊢
  simp only at h1
  obtain ⟨gen, last, rfl, hl, hg, hf⟩ := directSplit_shape C P rand root t h1 pub keys h
  rw [heldBy_last h1 hl hg]
  constructor
  · intro hne
    rcases directSplit_spec C P rand root' t h1 with ⟨_, gen', g1, g2⟩ | ⟨pub', keys', g, _⟩
    · exfalso
      apply hne
      have := gen_sum P _ _ _ hf g1
      rw [this, ← cast_eq_iff]
      unfold scalarSum
      rw [← total_nat, g2, sv_keyScalar]
    · obtain ⟨gen', last', rfl, hl', hg', hf'⟩ := directSplit_shape C P rand root' t h1 pub' keys' g
      refine ⟨pub', _, g, ?_⟩
      rw [heldBy_last h1 hl' hg']
      refine gen_unique P _ 1 _ _ hf' ?_ hf ?_ <;> simpa using ‹_›
  · intro he rand' _ pub' keys' g hh
    obtain ⟨gen', last', rfl, hl', hg', hf'⟩ := directSplit_shape C P rand' root' t h1 pub' keys' g
    rw [heldBy_last h1 hl' hg'] at hh
    subst hh
    rcases directSplit_spec C P rand' root' t h1 with ⟨g', _⟩ | ⟨p, k, g', _, k1, k2, _⟩
    · rw [g] at g'; cases g'
    · rw [g] at g'
      obtain ⟨rfl, rfl⟩ := Prod.mk.inj (Out.ok.inj g')
      have hz := (k1 last' (by simp)).2
      apply hz
      rw [total_append, total_cons] at k2
      rw [← cast_eq_iff] at he
      rw [sv_keyScalar root', he] at k2
      unfold scalarSum at k2
      rw [← total_nat] at k2
      have e : total [] = 0 := by simp [total]
      rw [e, add_zero] at k2
      simpa using k2

theorem clamped_form {x : Nat} (h : Clamped x) (h2 : x < 2 ^ 254 + 2 ^ 253) : ∃ e ≤ 2 ^ 250 - 1, x = 2 ^ 254 + 8 * e := by
  obtain ⟨h8, hlo, _⟩ := h
  obtain ⟨m, rfl⟩ := h8
  refine ⟨m - 2 ^ 251, by omega, by omega⟩

theorem clamped_sum : ∀ ks : List KeyShare, (∀ k ∈ ks, ∃ e ≤ 2 ^ 250 - 1, kL k.key.key = 2 ^ 254 + 8 * e) →
    ∃ e ≤ ks.length * (2 ^ 250 - 1), scalarSum ks = ks.length * 2 ^ 254 + 8 * e := by
  intro ks
  induction ks with
  | nil => intro _; exact ⟨0, by simp, by simp [scalarSum]⟩
  | cons k ks ih =>
    intro h
    obtain ⟨e, he, h1⟩ := ih (fun x hx => h x (by simp [hx]))
    obtain ⟨f, hf, h2⟩ := h k (by simp)
    refine ⟨e + f, ?_, ?_⟩
    · rw [List.length_cons, Nat.succ_mul]; omega
    · rw [scalarSum_cons, h1, h2, List.length_cons, Nat.succ_mul]; omega

/-- **C88** fails when the last share is among the observed ones: whoever misses only shares with
lower numbers (`missing`, `m` of them) knows that the key scalar is one of at most
`m·(2²⁵⁰ - 1) + 1` values modulo ℓ, because these shares are clamped keys.  This holds for every
key, every dealing and every random numbers compatible with the observed shares. -/
theorem C88_other_share_missing (C : Curve) (P : Prims) (d : Dealer) (hd : IsDealer d) (ha : d.alg = .direct)
    (missing : Finset Nat) (hm : ∀ i ∈ missing, 1 ≤ i ∧ i < d.n.toNat) (observed : List KeyShare)
    (rand coef : Nat → Bytes) (root : Prv) (pub : Pub) (keys : List KeyShare)
    (h : d.splitRootKey C P rand coef root = .ok (pub, keys)) (ho : heldBy missing keys = observed) :
    ∃ e ≤ missing.card * (2 ^ 250 - 1),
      kL root.key % ellL = (scalarSum observed + missing.card * 2 ^ 254 + 8 * e) % ellL := by
  obtain ⟨n, t, alg⟩ := d
  simp only at ha
  subst ha
  obtain ⟨h1, h2, h3⟩ := (isDealer_iff _).mp hd
  have h3 : t = n := h3 rfl
  subst h3
  simp only [Dealer.splitRootKey] at h
  simp only at h1 hm
  have hsum := C37_direct_sum C P rand root t h1 pub keys h
  obtain ⟨gen, last, rfl, hl, hg, hf⟩ := directSplit_shape C P rand root t h1 pub keys h
  change scalarSum (gen ++ [last]) % ellL = _ at hsum
  rw [scalarSum_split missing, ho, List.filter_append,
    List.filter_cons_of_neg (by simp only [hl, decide_eq_true_eq]; intro hc; exact absurd (hm _ hc).2 (by omega)),
    List.filter_nil, List.append_nil] at hsum
  have hlen : (gen.filter (fun k => k.id ∈ missing)).length = missing.card := by
    have e : (gen.filter (fun k => k.id ∈ missing)).length = ((gen.map KeyShare.id).filter (· ∈ missing)).length := by
      rw [List.filter_map, List.length_map]; rfl
    rw [e, hg]
    have nd : ((List.range' 1 (t.toNat - 1)).filter (· ∈ missing)).Nodup := List.Nodup.filter _ List.nodup_range'
    rw [← List.toFinset_card_of_nodup nd]
    congr 1
    ext i
    simp only [List.mem_toFinset, List.mem_filter, List.mem_range'_1, decide_eq_true_eq]
    constructor
    · exact fun h => h.2
    · intro hi; have := hm i hi; exact ⟨by omega, hi⟩
  have hall : ∀ k ∈ gen, ∃ e ≤ 2 ^ 250 - 1, kL k.key.key = 2 ^ 254 + 8 * e := by
    clear hsum hlen hg h
    revert hf
    generalize (List.range (t.toNat - 1)).map rand = seeds
    intro hf
    clear ho
    induction hf with
    | nil => simp
    | cons a b ih =>
      intro k hk
      rcases List.mem_cons.mp hk with rfl | hk
      · obtain ⟨ki, hk1, _, hcl, hlt, _⟩ := C30_generate C P _
        rw [a] at hk1
        rw [Out.ok.inj hk1]
        exact clamped_form hcl hlt
      · exact ih k hk
  obtain ⟨e, he, hs⟩ := clamped_sum (gen.filter (fun k => k.id ∈ missing)) (fun k hk => hall k (List.mem_filter.mp hk).1)
  rw [hlen] at he hs
  exact ⟨e, he, by rw [← hsum, hs]; congr 1; omega⟩

/-- **C88** So with up to four shares missing, all of them below the last, there are secrets the
observed shares rule out; with one share missing at least three quarters of all. -/
theorem C88_not_perfect (C : Curve) (P : Prims) (d : Dealer) (hd : IsDealer d) (ha : d.alg = .direct)
    (missing : Finset Nat) (hm : ∀ i ∈ missing, 1 ≤ i ∧ i < d.n.toNat) (observed : List KeyShare) :
    ∃ possible : Finset F, possible.card ≤ missing.card * (2 ^ 250 - 1) + 1 ∧
      ∀ rand coef root pub keys, d.splitRootKey C P rand coef root = .ok (pub, keys) → heldBy missing keys = observed →
        ((kL root.key : Nat) : F) ∈ possible := by
  refine ⟨(Finset.range (missing.card * (2 ^ 250 - 1) + 1)).image
    (fun e => ((scalarSum observed + missing.card * 2 ^ 254 + 8 * e : Nat) : F)), ?_, ?_⟩
  · exact Nat.le_trans Finset.card_image_le (by rw [Finset.card_range])
  · intro rand coef root pub keys h ho
    obtain ⟨e, he, hs⟩ := C88_other_share_missing C P d hd ha missing hm observed rand coef root pub keys h ho
    rw [Finset.mem_image]
    exact ⟨e, by rw [Finset.mem_range]; omega, ((cast_eq_iff _ _).mpr hs).symm⟩

/-- The numbers: one missing share leaves less than a quarter of the `ℓ` scalars, four leave
less than all. -/
theorem C88_not_perfect_numbers : 4 * (1 * (2 ^ 250 - 1) + 1) < ellL ∧ 4 * (2 ^ 250 - 1) + 1 < ellL := by decide +kernel

-- the hypotheses: three direct shares are dealt for one of any two different keys
example : IsDealer ⟨3, 3, .direct⟩ := (isDealer_iff _).mpr ⟨by decide, by decide, fun _ => rfl⟩
example (C : Curve) (P : Prims) (rand coef : Nat → Bytes) (r1 r2 : Prv) (h12 : kL r1.key % ellL ≠ kL r2.key % ellL) :
    (∃ pub keys, (Dealer.mk 3 3 .direct).splitRootKey C P rand coef r1 = .ok (pub, keys)) ∨
    ∃ pub keys, (Dealer.mk 3 3 .direct).splitRootKey C P rand coef r2 = .ok (pub, keys) := by
  rcases C37_direct_total C P rand r1 3 (by decide) with ⟨⟨p, k⟩, h⟩ | ⟨_, g, hg, hs⟩
  · exact .inl ⟨p, k, h⟩
  · rcases C37_direct_total C P rand r2 3 (by decide) with ⟨⟨p, k⟩, h⟩ | ⟨_, g', hg', hs'⟩
    · exact .inr ⟨p, k, h⟩
    · exact absurd (by rw [← hs, ← hs']; exact congrArg (· % ellL) (gen_sum P _ _ _ hg hg')) h12
example : ∀ i ∈ ({1} : Finset Nat), 1 ≤ i ∧ i < (Dealer.mk 3 3 .direct).n.toNat := by decide

end Cardano.Tss
