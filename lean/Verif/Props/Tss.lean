import Verif.Lemmas.Tss
import Verif.Spec.Tss
import Verif.Props.Bip32

/-! # C37, C40: dealer parameters and direct sharing -/

namespace Cardano.Tss

open Cardano Cardano.Ed Cardano.Bip32 Cardano.Spec.Bip32

/-! ### C40: parameters -/

theorem validateN_eq (n : UInt32) : validateN n = if n.toNat = 0 then .throw .invalidArgument else .ok () := by
  unfold validateN
  have : (n < 1) ↔ n.toNat = 0 := by
    rw [UInt32.lt_iff_toNat_lt]; show n.toNat < 1 ↔ _; omega
  by_cases h : n.toNat = 0
  · rw [if_pos (this.mpr h), if_pos h]
  · rw [if_neg (fun e => h (this.mp e)), if_neg h]

theorem validateT_eq (n t : UInt32) : validateT n t =
    if t.toNat = 0 ∨ n.toNat < t.toNat then .throw .invalidArgument else .ok () := by
  unfold validateT
  have h1 : (t < 1) ↔ t.toNat = 0 := by
    rw [UInt32.lt_iff_toNat_lt]; show t.toNat < 1 ↔ _; omega
  have h2 : (t > n) ↔ n.toNat < t.toNat := UInt32.lt_iff_toNat_lt
  simp only [Bool.or_eq_true, decide_eq_true_eq, h1, h2]

/-- **C40** two-argument constructor: accepted exactly for 1 ≤ t ≤ n; direct sharing iff t = n. -/
theorem C40_dealer2 (n t : UInt32) :
    dealer2 n t = if 1 ≤ t.toNat ∧ t.toNat ≤ n.toNat then .ok ⟨n, t, if t = n then .direct else .shamir⟩
      else .throw .invalidArgument := by
  unfold dealer2
  rw [validateN_eq, validateT_eq]
  by_cases hn : n.toNat = 0
  · simp only [hn, if_true, Out.throw_bind]
    rw [if_neg (by omega)]
  · simp only [hn, if_false, Out.ok_bind]
    by_cases ht : 1 ≤ t.toNat ∧ t.toNat ≤ n.toNat
    · rw [if_neg (by omega), if_pos ht]
      simp only [Out.ok_bind, Out.pure_eq, beq_iff_eq]
    · rw [if_pos (by omega), if_neg ht]; rfl

/-- **C40** one-argument constructor. -/
theorem C40_dealer1 (n : UInt32) :
    dealer1 n = if 1 ≤ n.toNat then .ok ⟨n, n, .direct⟩ else .throw .invalidArgument := by
  unfold dealer1
  rw [validateN_eq]
  by_cases hn : n.toNat = 0
  · simp [hn]
  · simp only [hn, if_false]; rw [if_pos (by omega)]; rfl

/-- **C40** three-argument constructor: additionally direct sharing needs t = n. -/
theorem C40_dealer3 (n t : UInt32) (a : Alg) :
    dealer3 n t a = if 1 ≤ t.toNat ∧ t.toNat ≤ n.toNat ∧ (a = .direct → t = n) then .ok ⟨n, t, a⟩
      else .throw .invalidArgument := by
  unfold dealer3
  rw [validateN_eq, validateT_eq]
  by_cases hn : n.toNat = 0
  · simp only [hn, if_true, Out.throw_bind]
    rw [if_neg (by omega)]
  · simp only [hn, if_false, Out.ok_bind]
    by_cases ht : 1 ≤ t.toNat ∧ t.toNat ≤ n.toNat
    · rw [if_neg (by omega)]
      simp only [Out.ok_bind]
      by_cases htn : t = n
      · subst htn; simp [ht.1]
      · cases a <;> simp [htn, ht]
    · have h1 : t.toNat = 0 ∨ n.toNat < t.toNat := by omega
      have h2 : ¬ (1 ≤ t.toNat ∧ t.toNat ≤ n.toNat ∧ (a = .direct → t = n)) := fun h => ht ⟨h.1, h.2.1⟩
      simp only [h1, if_true, h2, if_false, Out.throw_bind]

/-! ### Direct sharing -/

/-- Sum of the shares' scalars in the field. -/
def total (ks : List KeyShare) : F := (ks.map (fun k => sv (keyScalar k.key))).sum

theorem total_cons (k : KeyShare) (ks : List KeyShare) : total (k :: ks) = sv (keyScalar k.key) + total ks := by
  simp [total]

theorem total_append (a b : List KeyShare) : total (a ++ b) = total a + total b := by
  simp [total]

theorem total_perm {a b : List KeyShare} (h : a.Perm b) : total a = total b := by
  unfold total; exact (h.map _).sum_eq

theorem sv_keyScalar (k : Prv) : sv (keyScalar k) = ((kL k.key : Nat) : F) := sv_reduce32 _

theorem total_nat (ks : List KeyShare) : total ks = (((ks.map (fun k => kL k.key.key)).sum : Nat) : F) := by
  induction ks with
  | nil => simp [total]
  | cons k ks ih => rw [total_cons, ih, sv_keyScalar]; simp

theorem cast_eq_iff (a b : Nat) : (a : F) = (b : F) ↔ a % ellL = b % ellL := ZMod.natCast_eq_natCast_iff' _ _ _

theorem directLoop_spec (C : Curve) (P : Prims) : ∀ (seeds : List Bytes) (i : Nat) (ss ab : Bytes) (keys : List KeyShare) (a : F),
    Canon ss → (i ≠ 0 → ab = C.enc (bp C a)) → (i = 0 → a = 0) →
    ∃ ss' ab' new, directLoop C P seeds i ss ab keys = .ok (ss', ab', keys ++ new) ∧ Canon ss' ∧
      new.map KeyShare.id = List.range' (i + 1) seeds.length ∧
      (∀ k ∈ new, k.key.WF ∧ sv (keyScalar k.key) ≠ 0) ∧
      sv ss' = sv ss - total new ∧
      (seeds ≠ [] → ab' = C.enc (bp C (a + total new))) ∧ (seeds = [] → ab' = ab) ∧
      List.Forall₂ (fun seed k => generate P seed = .ok k.key) seeds new := by
  intro seeds
  induction seeds with
  | nil =>
    intro i ss ab keys a hss _ _
    exact ⟨ss, ab, [], by simp [directLoop], hss, by simp, by simp, by simp [total], by simp, by simp, .nil⟩
  | cons seed rest ih =>
    intro i ss ab keys a hss hab h0
    obtain ⟨ki, hk, hwf, hcl, _⟩ := C30_generate C P seed
    have hnz : sv (keyScalar ki) ≠ 0 := by
      rw [sv_keyScalar]; exact fun h => clamped_not_dvd hcl ((dvd_iff _).mpr h)
    have hstep : accPoint C i ab (mulBase C (keyScalar ki)) =
        .ok (C.enc (bp C (a + sv (keyScalar ki)))) := by
      rw [mulBase_eq C (canon_keyScalar _)]
      unfold accPoint
      by_cases hi : i = 0
      · rw [if_pos hi, h0 hi, zero_add]
      · rw [if_neg hi, hab hi, pointPlus_enc, bp_add]
    obtain ⟨ss', ab', new, h1, h2, h3, h4, h5, h6, h7, h8⟩ :=
      ih (i + 1) (scalarSub ss (keyScalar ki)) (C.enc (bp C (a + sv (keyScalar ki)))) (keys ++ [⟨i + 1, ki⟩])
        (a + sv (keyScalar ki)) (canon_sub _ _) (fun _ => rfl) (fun h => absurd h (by omega))
    refine ⟨ss', ab', ⟨i + 1, ki⟩ :: new, ?_, h2, ?_, ?_, ?_, ?_, by simp, .cons hk h8⟩
    · rw [directLoop, hk]
      simp only [Out.ok_bind]
      rw [hstep]
      simp only [Out.ok_bind]
      rw [h1]; simp
    · rw [List.map_cons, h3, List.length_cons, List.range'_succ]
    · intro k hkm
      rcases List.mem_cons.mp hkm with rfl | h
      · exact ⟨hwf, hnz⟩
      · exact h4 k h
    · rw [h5, sv_sub hss, total_cons]; ring
    · intro _
      by_cases hr : rest = []
      · subst hr
        rw [h7 rfl]
        have : new = [] := by simpa using h3
        rw [this]; simp [total]
      · rw [h6 hr, total_cons]; ring_nf

theorem sharePubs_ok (C : Curve) : ∀ ks : List KeyShare,
    (∀ k ∈ ks, sv (keyScalar k.key) ≠ 0) →
      sharePubs C ks = .ok (ks.map (fun k => C.enc (bp C (sv (keyScalar k.key))))).flatten := by
  intro ks
  induction ks with
  | nil => intro _; rfl
  | cons k ks ih =>
    intro h
    rw [sharePubs, publicKey_bp, if_neg (h k (by simp)), Out.ok_bind, ih (fun k hk => h k (by simp [hk]))]
    simp

theorem sharePubs_throw (C : Curve) : ∀ ks : List KeyShare,
    (∃ k ∈ ks, sv (keyScalar k.key) = 0) → sharePubs C ks = .throw .runtimeError := by
  intro ks
  induction ks with
  | nil => rintro ⟨k, hk, _⟩; simp at hk
  | cons k ks ih =>
    rintro ⟨k', hk', h0⟩
    rw [sharePubs, publicKey_bp]
    by_cases h : sv (keyScalar k.key) = 0
    · rw [if_pos h]; rfl
    · rw [if_neg h, Out.ok_bind]
      have : k' ∈ ks := by
        rcases List.mem_cons.mp hk' with rfl | h'
        · exact absurd h0 h
        · exact h'
      rw [ih ⟨k', this, h0⟩]; rfl

theorem toNat_sub_one {n : UInt32} (h : 1 ≤ n.toNat) : (n - 1).toNat = n.toNat - 1 := by
  have : (1 : UInt32) ≤ n := by rw [UInt32.le_iff_toNat_le]; exact h
  rw [UInt32.toNat_sub_of_le _ _ this]; rfl

/-- Everything about `Ed25519DirectKeySplit`: either the last share is zero and it throws, or
it returns `n` shares with ids 1..n that add up to the root scalar, and the point
`[s]B` — except for `n = 1`, where the initial basepoint is never overwritten. -/
theorem directSplit_spec (C : Curve) (P : Prims) (rand : Nat → Bytes) (root : Prv) (n : UInt32) (hn : 1 ≤ n.toNat) :
    (directSplit C P rand root n = .throw .runtimeError ∧
      ∃ gen : List KeyShare, List.Forall₂ (fun seed k => generate P seed = .ok k.key) ((List.range (n.toNat - 1)).map rand) gen ∧
        total gen = sv (keyScalar root)) ∨
    ∃ pub keys, directSplit C P rand root n = .ok (pub, keys) ∧ keys.map KeyShare.id = List.range' 1 n.toNat ∧
      (∀ k ∈ keys, k.key.WF ∧ sv (keyScalar k.key) ≠ 0) ∧ total keys = sv (keyScalar root) ∧
      chainCodeOf C P keys = .ok pub.cc ∧
      pub.key = C.enc (bp C (sv (keyScalar root) + if n.toNat = 1 then 1 else 0)) := by
  unfold directSplit
  obtain ⟨ss, ab, new, h1, h2, h3, h4, h5, h6, h7, h8⟩ := directLoop_spec C P ((List.range (n - 1).toNat).map rand) 0
    (keyScalar root) (mulBase C (fromUint 1)) [] 0 (canon_keyScalar _) (fun h => absurd rfl h) (fun _ => rfl)
  simp only [h1, Out.ok_bind, List.nil_append]
  have hab : ab = C.enc (bp C (total new + if n.toNat = 1 then 1 else 0)) := by
    by_cases h : n.toNat = 1
    · have he : ((List.range (n - 1).toNat).map rand) = [] := by rw [toNat_sub_one hn, h]; rfl
      rw [h7 he, if_pos h, mulBase_eq C (canon_fromUint (by decide)), sv_fromUint (by decide)]
      rw [he] at h3
      have : new = [] := by simpa using h3
      rw [this]; simp [total]
    · have he : ((List.range (n - 1).toNat).map rand) ≠ [] := by
        intro h0
        have := congrArg List.length h0
        rw [List.length_map, List.length_range, toNat_sub_one hn] at this
        simp at this; omega
      rw [h6 he, if_neg h]; simp
  rw [hab, mulBase_eq C h2, pointPlus_enc, Out.ok_bind, ← bp_add]
  obtain ⟨e1, e2, e3⟩ := extKey_scalar P h2
  by_cases h0 : sv ss = 0
  · left
    refine ⟨?_, new, by rw [← toNat_sub_one hn]; exact h8, by rw [h0] at h5; exact (sub_eq_zero.mp h5.symm).symm⟩
    unfold chainCodeOf
    rw [sharePubs_throw C _ ⟨⟨n.toNat, extKey P ss⟩, by simp, by simp only []; rw [e1]; exact h0⟩]
    rfl
  · right
    have hall : ∀ k ∈ new ++ [⟨n.toNat, extKey P ss⟩], k.key.WF ∧ sv (keyScalar k.key) ≠ 0 := by
      intro k hk
      rcases List.mem_append.mp hk with h | h
      · exact h4 k h
      · rw [List.mem_singleton] at h
        subst h
        exact ⟨e3, by simp only []; rw [e1]; exact h0⟩
    have hcc : chainCodeOf C P (new ++ [⟨n.toNat, extKey P ss⟩]) = .ok (P.sha256 ((new ++ [(⟨n.toNat, extKey P ss⟩ : KeyShare)]).map (fun k => C.enc (bp C (sv (keyScalar k.key))))).flatten) := by
      unfold chainCodeOf
      rw [sharePubs_ok C _ (fun k hk => (hall k hk).2)]; rfl
    rw [hcc]
    refine ⟨_, _, rfl, ?_, hall, ?_, hcc, ?_⟩
    · rw [List.map_append, h3, List.length_map, List.length_range, toNat_sub_one hn]
      show List.range' (0 + 1) (n.toNat - 1) ++ [n.toNat] = _
      have : n.toNat = (n.toNat - 1) + 1 := by omega
      conv_rhs => rw [this, List.range'_concat]
      congr 2; omega
    · rw [total_append, total_cons, e1, h5]; simp [total]
    · show C.enc _ = C.enc _
      have e : total new + (if n.toNat = 1 then 1 else 0) + sv ss = sv (keyScalar root) + (if n.toNat = 1 then 1 else 0) := by
        rw [h5]; ring
      rw [e]

/-- **C40** (direct): exactly `n` shares with ids 1, …, n. -/
theorem C40_direct_ids (C : Curve) (P : Prims) (rand : Nat → Bytes) (root : Prv) (n : UInt32) (hn : 1 ≤ n.toNat)
    (pub : Pub) (keys : List KeyShare) (h : directSplit C P rand root n = .ok (pub, keys)) :
    keys.map KeyShare.id = List.range' 1 n.toNat := by
  rcases directSplit_spec C P rand root n hn with ⟨h', _⟩ | ⟨p, k, h', h1, _⟩
  · rw [h] at h'; exact absurd h' (by simp)
  · rw [h] at h'
    obtain ⟨rfl, rfl⟩ := Prod.mk.inj (Out.ok.inj h')
    exact h1

/-- **C37**: the shares add up to the root scalar modulo the group order. -/
theorem C37_direct_sum (C : Curve) (P : Prims) (rand : Nat → Bytes) (root : Prv) (n : UInt32) (hn : 1 ≤ n.toNat)
    (pub : Pub) (keys : List KeyShare) (h : directSplit C P rand root n = .ok (pub, keys)) :
    (keys.map (fun k => kL k.key.key)).sum % ellL = kL root.key % ellL := by
  rcases directSplit_spec C P rand root n hn with ⟨h', _⟩ | ⟨p, k, h', _, _, h1, _⟩
  · rw [h] at h'; exact absurd h' (by simp)
  · rw [h] at h'
    obtain ⟨rfl, rfl⟩ := Prod.mk.inj (Out.ok.inj h')
    rw [← cast_eq_iff, ← total_nat, h1, sv_keyScalar]

/-- **C37**: for at least two shares the returned public key is the root's. -/
theorem C37_direct_public_key_partial (C : Curve) (P : Prims) (rand : Nat → Bytes) (root : Prv) (n : UInt32) (hn : 2 ≤ n.toNat)
    (pub p : Pub) (keys : List KeyShare) (h : directSplit C P rand root n = .ok (pub, keys)) (hp : root.publicKey C = .ok p) :
    pub.key = p.key := by
  rcases directSplit_spec C P rand root n (by omega) with ⟨h', _⟩ | ⟨p', k, h', _, _, _, _, h1⟩
  · rw [h] at h'; exact absurd h' (by simp)
  · rw [h] at h'
    obtain ⟨rfl, rfl⟩ := Prod.mk.inj (Out.ok.inj h')
    obtain ⟨_, rfl⟩ := publicKey_ok hp
    rw [h1, if_neg (by omega), add_zero, sv_keyScalar, bp_natCast]

/-- **C37** fails for `n = 1`: the returned key is `[s + 1]B`, never the root's. -/
theorem C37_single_share_wrong_key (C : Curve) (P : Prims) (rand : Nat → Bytes) (root : Prv)
    (pub p : Pub) (keys : List KeyShare) (h : directSplit C P rand root 1 = .ok (pub, keys)) (hp : root.publicKey C = .ok p) :
    pub.key = C.enc ((kL root.key + 1) • C.B) ∧ pub.key ≠ p.key := by
  rcases directSplit_spec C P rand root 1 (by decide) with ⟨h', _⟩ | ⟨p', k, h', _, _, _, _, h1⟩
  · rw [h] at h'; exact absurd h' (by simp)
  · rw [h] at h'
    obtain ⟨rfl, rfl⟩ := Prod.mk.inj (Out.ok.inj h')
    obtain ⟨_, rfl⟩ := publicKey_ok hp
    rw [h1, if_pos (show UInt32.toNat 1 = 1 from rfl), sv_keyScalar]
    refine ⟨?_, ?_⟩
    · rw [show ((kL root.key : Nat) : F) + 1 = ((kL root.key + 1 : Nat) : F) by push_cast; rfl, bp_natCast]
    · intro e
      have := C.enc_inj e
      rw [← bp_natCast, bp_inj] at this
      simp at this

/-- **C37**: the only failure is a last share equal to zero: the `n - 1` generated scalars
already add up to the root's. -/
theorem C37_direct_total (C : Curve) (P : Prims) (rand : Nat → Bytes) (root : Prv) (n : UInt32) (hn : 1 ≤ n.toNat) :
    (∃ r, directSplit C P rand root n = .ok r) ∨
    (directSplit C P rand root n = .throw .runtimeError ∧
      ∃ gen : List KeyShare, List.Forall₂ (fun seed k => generate P seed = .ok k.key) ((List.range (n.toNat - 1)).map rand) gen ∧
        (gen.map (fun k => kL k.key.key)).sum % ellL = kL root.key % ellL) := by
  rcases directSplit_spec C P rand root n hn with ⟨h, gen, h1, h2⟩ | ⟨p, k, h, _⟩
  · refine .inr ⟨h, gen, h1, ?_⟩
    rw [← cast_eq_iff, ← total_nat, h2, sv_keyScalar]
  · exact .inl ⟨_, h⟩

theorem sumScalars_spec : ∀ (ks : List KeyShare) (ss : Bytes), Canon ss →
    Canon (sumScalars ks ss) ∧ sv (sumScalars ks ss) = sv ss + total ks := by
  intro ks
  induction ks with
  | nil => intro ss h; exact ⟨h, by simp [sumScalars, total]⟩
  | cons k ks ih =>
    intro ss h
    obtain ⟨a, b⟩ := ih _ (canon_add ss (keyScalar k.key))
    exact ⟨a, by rw [sumScalars, b, sv_add h (canon_keyScalar _), total_cons]; ring⟩

theorem sumSharePubs_spec (C : Curve) : ∀ (ks : List KeyShare) (a : F), (∀ k ∈ ks, sv (keyScalar k.key) ≠ 0) →
    sumSharePubs C ks (C.enc (bp C a)) = .ok (C.enc (bp C (a + total ks))) := by
  intro ks
  induction ks with
  | nil => intro a _; simp [sumSharePubs, total]
  | cons k ks ih =>
    intro a h
    rw [sumSharePubs, publicKey_bp, if_neg (h k (by simp)), Out.ok_bind]
    simp only [pointPlus_enc, Out.ok_bind, ← bp_add]
    rw [ih _ (fun k hk => h k (by simp [hk])), total_cons, add_assoc]

theorem sumPoints_spec (C : Curve) : ∀ (xs : List F) (a : F),
    sumPoints C (xs.map (fun x => C.enc (bp C x))) (C.enc (bp C a)) = .ok (C.enc (bp C (a + xs.sum))) := by
  intro xs
  induction xs with
  | nil => intro a; simp [sumPoints]
  | cons x xs ih =>
    intro a
    rw [List.map_cons, sumPoints, pointPlus_enc, Out.ok_bind, ← bp_add, ih]
    simp [add_assoc]

/-- **C37** (round trip): recombining all direct shares, in any order, gives back the root
scalar and (for every `n ≥ 1`) the root public key. -/
theorem C37_direct_recombine (C : Curve) (P : Prims) (rand : Nat → Bytes) (root : Prv) (n : UInt32) (hn : 1 ≤ n.toNat)
    (pub p : Pub) (keys order : List KeyShare) (h : directSplit C P rand root n = .ok (pub, keys))
    (hp : root.publicKey C = .ok p) (ho : order.Perm keys) :
    ∃ k q, (Dealer.mk n n .direct).compositeSigningKey C P order = .ok k ∧ kL k.key = kL root.key % ellL ∧
      (Dealer.mk n n .direct).compositeKey C P order = .ok q ∧ q.key = p.key := by
  rcases directSplit_spec C P rand root n hn with ⟨h', _⟩ | ⟨p', k', h', hid, hall, htot, _, _⟩
  · rw [h] at h'; exact absurd h' (by simp)
  rw [h] at h'
  obtain ⟨rfl, rfl⟩ := Prod.mk.inj (Out.ok.inj h')
  obtain ⟨_, rfl⟩ := publicKey_ok hp
  have hlen : order.length = n.toNat := by
    rw [ho.length_eq, ← List.length_map (f := KeyShare.id), hid, List.length_range']
  have hall' : ∀ k ∈ order, sv (keyScalar k.key) ≠ 0 := fun k hk => (hall k (ho.mem_iff.mp hk)).2
  have htot' : total order = sv (keyScalar root) := by rw [total_perm ho, htot]
  unfold Dealer.compositeSigningKey Dealer.compositeKey
  simp only [hlen, Nat.lt_irrefl, if_false]
  cases order with
  | nil => simp at hlen; omega
  | cons k ks =>
    simp only []
    have hk0 := hall' k (by simp)
    have hcc : ∃ cc, chainCodeOf C P (k :: ks) = .ok cc := by
      unfold chainCodeOf; rw [sharePubs_ok C _ hall']; exact ⟨_, rfl⟩
    obtain ⟨cc, hcc⟩ := hcc
    rw [hcc, publicKey_bp, if_neg hk0]
    simp only [Out.ok_bind]
    rw [sumSharePubs_spec C _ _ (fun k hk => hall' k (by simp [hk]))]
    obtain ⟨hc, hs⟩ := sumScalars_spec ks (keyScalar k.key) (canon_keyScalar _)
    rw [← total_cons, htot'] at hs
    refine ⟨_, _, rfl, ?_, rfl, ?_⟩
    · show leNat ((sumScalars ks (keyScalar k.key) ++ _).take 32) = _
      rw [List.take_left' hc.1, ← sv_val hc, hs, sv_keyScalar, ZMod.val_natCast]
    · show C.enc _ = C.enc _
      rw [← total_cons, htot', sv_keyScalar, bp_natCast]

theorem pubs_map (C : Curve) {keys : List KeyShare} {pubs : List Pub}
    (h : List.Forall₂ (fun k q => k.key.publicKey C = .ok q) keys pubs) :
    pubs.map Pub.key = (keys.map (fun k => sv (keyScalar k.key))).map (fun x => C.enc (bp C x)) := by
  induction h with
  | nil => rfl
  | cons hk _ ih =>
    rw [publicKey_bp] at hk
    split at hk
    · exact absurd hk (by simp)
    · rw [List.map_cons, List.map_cons, List.map_cons, ih, ← Out.ok.inj hk]

theorem exists_map {α β : Type} (f : α → β) : ∀ l : List β, (∀ y ∈ l, ∃ x, f x = y) → ∃ xs : List α, l = xs.map f := by
  intro l
  induction l with
  | nil => intro _; exact ⟨[], rfl⟩
  | cons y ys ih =>
    intro h
    obtain ⟨x, hx⟩ := h y (by simp)
    obtain ⟨xs, hxs⟩ := ih (fun y hy => h y (by simp [hy]))
    exact ⟨x :: xs, by rw [List.map_cons, hx, hxs]⟩

theorem enc_bp_inj (C : Curve) : Function.Injective (fun x : F => C.enc (bp C x)) :=
  fun _ _ h => (bp_inj C).mp (C.enc_inj h)

/-- **C37**: the same from the public key shares alone. -/
theorem C37_direct_recombine_public (C : Curve) (P : Prims) (rand : Nat → Bytes) (root : Prv) (n : UInt32) (hn : 1 ≤ n.toNat)
    (pub p : Pub) (keys : List KeyShare) (h : directSplit C P rand root n = .ok (pub, keys))
    (hp : root.publicKey C = .ok p) (pubs order : List Pub) (hpub : List.Forall₂ (fun k q => k.key.publicKey C = .ok q) keys pubs)
    (ho : order.Perm pubs) :
    ∃ q, (Dealer.mk n n .direct).compositeKeyPubs C P order = .ok q ∧ q.key = p.key := by
  rcases directSplit_spec C P rand root n hn with ⟨h', _⟩ | ⟨p', k', h', hid, hall, htot, _, _⟩
  · rw [h] at h'; exact absurd h' (by simp)
  rw [h] at h'
  obtain ⟨rfl, rfl⟩ := Prod.mk.inj (Out.ok.inj h')
  obtain ⟨_, rfl⟩ := publicKey_ok hp
  have hmap : pubs.map Pub.key = (keys.map (fun k => sv (keyScalar k.key))).map (fun x => C.enc (bp C x)) := by
    exact pubs_map C hpub
  have hlen : order.length = n.toNat := by
    rw [ho.length_eq, ← hpub.length_eq, ← List.length_map (f := KeyShare.id), hid, List.length_range']
  have hperm := ho.map Pub.key
  rw [hmap] at hperm
  -- a permutation of an image is the image of a permutation
  obtain ⟨xs, hxs, hx⟩ : ∃ xs : List F, xs.Perm (keys.map (fun k => sv (keyScalar k.key))) ∧ order.map Pub.key = xs.map (fun x => C.enc (bp C x)) := by
    generalize keys.map (fun k => sv (keyScalar k.key)) = l at hperm
    obtain ⟨xs, hx⟩ := exists_map (fun x => C.enc (bp C x)) (order.map Pub.key) (fun y hy => by
      obtain ⟨x, _, hx⟩ := List.mem_map.mp (hperm.mem_iff.mp hy)
      exact ⟨x, hx⟩)
    exact ⟨xs, (List.map_perm_map_iff (enc_bp_inj C)).mp (hx ▸ hperm), hx⟩
  have hsum : xs.sum = sv (keyScalar root) := by rw [hxs.sum_eq]; exact htot
  unfold Dealer.compositeKeyPubs
  simp only [hlen, Nat.lt_irrefl, if_false]
  cases order with
  | nil => simp at hlen; omega
  | cons q qs =>
    cases xs with
    | nil => simp at hx
    | cons x xs =>
      rw [List.map_cons, List.map_cons, List.cons.injEq] at hx
      simp only []
      rw [hx.1, hx.2, sumPoints_spec]
      refine ⟨_, rfl, ?_⟩
      show C.enc _ = C.enc _
      rw [List.sum_cons] at hsum
      rw [hsum, sv_keyScalar, bp_natCast]

end Cardano.Tss
