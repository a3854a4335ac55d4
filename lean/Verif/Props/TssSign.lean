import Verif.Props.TssShamir

/-! # C38, C41, C42: threshold signing -/

namespace Cardano.Tss

open Cardano Cardano.Ed Cardano.Bip32 Cardano.Spec.Bip32 Cardano.Spec.Tss Polynomial

/-! ### C41: aggregation -/

theorem sumSigs_canon : ∀ (sigs : List Bytes) (s : Bytes), Canon s → Canon (sumSigs sigs s) := by
  intro sigs
  induction sigs with
  | nil => intro s h; exact h
  | cons a l ih => intro s _; exact ih _ (canon_add _ _)

theorem sumSigs_sv : ∀ (sigs : List Bytes) (s : Bytes), Canon s →
    sv (sumSigs sigs s) = sv s + (sigs.map (fun sig => ((leNat (sig.drop 32) : Nat) : F))).sum := by
  intro sigs
  induction sigs with
  | nil => intro s _; simp [sumSigs]
  | cons a l ih =>
    intro s h
    rw [sumSigs, ih _ (canon_add _ _), sv_add h (canon_reduce32 _), sv_reduce32]
    simp [add_assoc]

theorem aggregate_eq {sigs : List Bytes} {R : Bytes} (hne : sigs ≠ []) (h : ∀ sig ∈ sigs, sig.take 32 = R) :
    aggregateSignatures sigs = .ok (R ++ sumSigs sigs zero) := by
  cases sigs with
  | nil => exact absurd rfl hne
  | cons s0 l =>
    dsimp only [aggregateSignatures]
    have : ((s0 :: l).any fun sig => s0.take 32 != sig.take 32) = false := by
      rw [List.any_eq_false]
      intro sig hs
      rw [h s0 (by simp), h sig hs]; simp
    rw [this, h s0 (by simp)]; rfl

/-- **C41**: for every non-empty list of 64-byte shares the aggregate is defined: it throws
`invalid_argument` exactly if two shares carry different commitments, and otherwise is the
common commitment followed by the canonical sum of the second halves.
Missing: the empty list, where the claim is false of the code (C41_empty_undefined). -/
theorem C41_aggregateSignatures_partial (sigs : List Bytes) (hne : sigs ≠ []) :
    ((∃ a ∈ sigs, ∃ b ∈ sigs, a.take 32 ≠ b.take 32) → aggregateSignatures sigs = .throw .invalidArgument) ∧
    (∀ R, (∀ sig ∈ sigs, sig.take 32 = R) → ∃ S, aggregateSignatures sigs = .ok (R ++ S) ∧ S.length = 32 ∧
      leNat S = (sigs.map (fun sig => leNat (sig.drop 32))).sum % ellL) := by
  constructor
  · rintro ⟨a, ha, b, hb, hab⟩
    cases sigs with
    | nil => exact absurd rfl hne
    | cons s0 l =>
      dsimp only [aggregateSignatures]
      rw [if_pos]
      rw [List.any_eq_true]
      by_cases e : s0.take 32 = a.take 32
      · exact ⟨b, hb, by rw [e]; simpa using hab⟩
      · exact ⟨a, ha, by simpa using e⟩
  · intro R h
    have hc := sumSigs_canon sigs zero canon_zero
    refine ⟨_, aggregate_eq hne h, hc.1, ?_⟩
    rw [← sv_val hc, sumSigs_sv sigs zero canon_zero, sv_zero, zero_add]
    have : (sigs.map (fun sig => ((leNat (sig.drop 32) : Nat) : F))).sum =
        (((sigs.map (fun sig => leNat (sig.drop 32))).sum : Nat) : F) := by
      induction sigs with
      | nil => simp
      | cons a l ih =>
        cases l with
        | nil => simp
        | cons b l =>
          have := ih (by simp) (fun s hs => h s (by simp [hs])) (sumSigs_canon _ _ canon_zero)
          rw [List.map_cons, List.sum_cons, this]; simp
    rw [this, ZMod.val_natCast]

/-- **C41**: the result does not depend on the order of the shares. -/
theorem C41_aggregate_order (a b : List Bytes) (h : a.Perm b) (hne : a ≠ []) :
    aggregateSignatures a = aggregateSignatures b := by
  have hne' : b ≠ [] := by rintro rfl; exact hne h.eq_nil
  by_cases hd : ∃ x ∈ a, ∃ y ∈ a, x.take 32 ≠ y.take 32
  · obtain ⟨x, hx, y, hy, hxy⟩ := hd
    rw [(C41_aggregateSignatures_partial a hne).1 ⟨x, hx, y, hy, hxy⟩,
      (C41_aggregateSignatures_partial b hne').1 ⟨x, h.mem_iff.mp hx, y, h.mem_iff.mp hy, hxy⟩]
  · have hall : ∀ x ∈ a, ∀ y ∈ a, x.take 32 = y.take 32 := by
      intro x hx y hy
      by_contra e
      exact hd ⟨x, hx, y, hy, e⟩
    obtain ⟨s0, hs0⟩ := List.exists_mem_of_ne_nil a hne
    have ha : ∀ s ∈ a, s.take 32 = s0.take 32 := fun s hs => hall s hs s0 hs0
    have hb : ∀ s ∈ b, s.take 32 = s0.take 32 := fun s hs => ha s (h.mem_iff.mpr hs)
    rw [aggregate_eq hne ha, aggregate_eq hne' hb]
    congr 2
    apply canon_inj (sumSigs_canon _ _ canon_zero) (sumSigs_canon _ _ canon_zero)
    rw [sumSigs_sv _ _ canon_zero, sumSigs_sv _ _ canon_zero, (h.map _).sum_eq]

/-- **C41** fails on the empty list: both aggregations read element 0 of an empty vector. -/
theorem C41_empty_undefined (C : Curve) : aggregateSignatures [] = .ub ∧ aggregateCommitments C [] = .ub := ⟨rfl, rfl⟩

theorem sumPoints_total (C : Curve) : ∀ (ps : List Bytes) (acc : Bytes),
    (∃ p, C.dec acc = some p) →
    (∃ r, sumPoints C ps acc = .ok r ∧ ∀ p ∈ ps, ∃ q, C.dec p = some q) ∨
    (sumPoints C ps acc = .throw .invalidArgument ∧ ∃ p ∈ ps, C.dec p = none) := by
  intro ps
  induction ps with
  | nil => intro acc _; left; exact ⟨acc, rfl, by simp⟩
  | cons p ps ih =>
    rintro acc ⟨a, ha⟩
    rw [sumPoints]
    unfold pointPlus pointAdd
    simp only [ha]
    cases hp : C.dec p with
    | none => right; exact ⟨rfl, p, by simp, hp⟩
    | some q =>
      simp only [Out.ok_bind]
      rcases ih (C.enc (a + q)) ⟨_, C.dec_enc _⟩ with ⟨r, hr, hall⟩ | ⟨hr, p', hp', hn⟩
      · left
        refine ⟨r, hr, ?_⟩
        intro x hx
        rcases List.mem_cons.mp hx with rfl | hx
        · exact ⟨q, hp⟩
        · exact hall x hx
      · right; exact ⟨hr, p', by simp [hp'], hn⟩

/-- **C41**: aggregating at least two commitments is defined on all inputs: it returns iff
every one of them encodes a curve point and throws `invalid_argument` otherwise. -/
theorem C41_aggregateCommitments (C : Curve) (c d : Bytes) (cs : List Bytes) :
    ((∀ p ∈ c :: d :: cs, ∃ q, C.dec p = some q) → ∃ R, aggregateCommitments C (c :: d :: cs) = .ok R) ∧
    ((∃ p ∈ c :: d :: cs, C.dec p = none) → aggregateCommitments C (c :: d :: cs) = .throw .invalidArgument) := by
  dsimp only [aggregateCommitments]
  by_cases hc : ∃ p, C.dec c = some p
  · rcases sumPoints_total C (d :: cs) c hc with ⟨r, hr, hall⟩ | ⟨hr, p, hp, hn⟩
    · refine ⟨fun _ => ⟨r, hr⟩, ?_⟩
      rintro ⟨p, hp, hn⟩
      rcases List.mem_cons.mp hp with rfl | hp
      · obtain ⟨q, hq⟩ := hc; rw [hn] at hq; exact absurd hq (by simp)
      · obtain ⟨q, hq⟩ := hall p hp; rw [hn] at hq; exact absurd hq (by simp)
    · refine ⟨fun h => ?_, fun _ => hr⟩
      obtain ⟨q, hq⟩ := h p (List.mem_cons_of_mem _ hp)
      rw [hn] at hq; exact absurd hq (by simp)
  · have hcn : C.dec c = none := by
      cases h : C.dec c with
      | none => rfl
      | some p => exact absurd ⟨p, h⟩ hc
    refine ⟨fun h => absurd (h c (by simp)) hc, fun _ => ?_⟩
    rw [sumPoints]; unfold pointPlus pointAdd; simp only [hcn]; rfl

/-- **C41**: a single commitment is returned unchecked. -/
theorem C41_single_commitment (C : Curve) (c : Bytes) : aggregateCommitments C [c] = .ok c := rfl

/-! ### C38: signing -/

/-- A participant: its share, the interpolation coefficient it uses and its nonce bytes. -/
structure Party where
  share : KeyShare
  coef : Bytes
  nonce : Bytes

theorem commitment_eq {C : Curve} {nonce : Bytes} {r : Bytes × Bytes} (h : commitmentFromNonce C nonce = .ok r) :
    Canon r.2 ∧ sv r.2 = ((leNat nonce : Nat) : F) ∧ r.1 = C.enc (bp C (sv r.2)) := by
  unfold commitmentFromNonce at h
  split at h
  · exact absurd h (by simp)
  · dsimp only at h
    obtain rfl := Out.ok.inj h
    dsimp only
    split
    · exact ⟨canon_reduce64 _, sv_reduce64 _, mulBase_eq C (canon_reduce64 _)⟩
    · exact ⟨canon_reduce32 _, sv_reduce32 _, mulBase_eq C (canon_reduce32 _)⟩

/-- **C38**: a nonce is accepted iff it has 32 or 64 bytes; the commitment is `[nonce]B`. -/
theorem C38_commitment (C : Curve) (nonce : Bytes) :
    (nonce.length ≠ 32 → nonce.length ≠ 64 → commitmentFromNonce C nonce = .throw .invalidArgument) ∧
    (nonce.length = 32 ∨ nonce.length = 64 → ∃ r, commitmentFromNonce C nonce = .ok (C.enc (leNat nonce • C.B), r) ∧
      r.length = 32 ∧ leNat r = leNat nonce % ellL) := by
  constructor
  · intro h1 h2
    unfold commitmentFromNonce
    simp [h1, h2]
  · intro h
    have : ∃ x, commitmentFromNonce C nonce = .ok x := by
      unfold commitmentFromNonce
      rw [if_neg (by simp only [Bool.and_eq_true, decide_eq_true_eq]; omega)]
      exact ⟨_, rfl⟩
    obtain ⟨⟨c, r⟩, hx⟩ := this
    obtain ⟨h1, h2, h3⟩ := commitment_eq hx
    dsimp only at h1 h2 h3
    refine ⟨r, ?_, h1.1, ?_⟩
    · rw [hx, h3, h2, bp_natCast]
    · rw [← sv_val h1, h2, ZMod.val_natCast]

theorem sigShare_spec (P : Prims) (msg nonce R coef : Bytes) (hR : R.length = 32) (pk : Pub) (sk : KeyShare) :
    (signatureShareCoef P msg nonce R coef pk sk).take 32 = R ∧
    (signatureShareCoef P msg nonce R coef pk sk).length = 64 ∧
    ((leNat ((signatureShareCoef P msg nonce R coef pk sk).drop 32) : Nat) : F) =
      sv nonce + ((leNat (P.sha512 (R ++ pk.key ++ msg)) : Nat) : F) * (sv coef * sv (keyScalar sk.key)) := by
  unfold signatureShareCoef
  dsimp only
  refine ⟨List.take_left' hR, by rw [List.length_append, hR, (canon_add _ _).1], ?_⟩
  rw [List.drop_left' hR]
  show sv (scalarAdd _ _) = _
  rw [sv_add (canon_reduce32 _) (canon_mul _ _), sv_mul, sv_mul, sv_reduce32, sv_reduce32, sv_reduce64]
  show _ = sv nonce + _
  rw [mul_assoc]; rfl

/-- Without coefficient the share is the one with coefficient 1. -/
theorem C38_no_coefficient (P : Prims) (msg nonce R : Bytes) (pk : Pub) (sk : KeyShare) :
    signatureShare P msg nonce R pk sk = signatureShareCoef P msg nonce R (1 :: List.replicate 31 0) pk sk := by
  have key : scalarAdd (reduce32 nonce) (scalarMul (reduce64 (P.sha512 (R ++ pk.key ++ msg))) (reduce32 (sk.key.key.take 32))) =
      scalarAdd (reduce32 nonce) (scalarMul (scalarMul (reduce64 (P.sha512 (R ++ pk.key ++ msg)))
        (reduce32 (1 :: List.replicate 31 0))) (reduce32 (sk.key.key.take 32))) := by
    apply canon_inj (canon_add _ _) (canon_add _ _)
    rw [sv_add (canon_reduce32 _) (canon_mul _ _), sv_add (canon_reduce32 _) (canon_mul _ _), sv_mul, sv_mul, sv_mul,
      sv_reduce32 (1 :: _)]
    have : leNat (1 :: List.replicate 31 0) = 1 := by decide
    rw [this, Nat.cast_one, mul_one]
  unfold signatureShare signatureShareCoef
  simp only [key]

theorem bp_not_small (C : Curve) (x : F) (h : x ≠ 0) : C.smallOrder (C.enc (bp C x)) = false := by
  have := nsmul_not_small C x.val (fun hd => h (by
    have := (dvd_iff _).mp hd
    rwa [ZMod.natCast_zmod_val] at this))
  exact this

/-- The verification equation over the field. -/
theorem verify_iff (C : Curve) (P : Prims) (pk : Pub) (msg S : Bytes) (s r : F) (hpk : pk.key = C.enc (bp C s)) (hs : s ≠ 0)
    (hr : r ≠ 0) (hS : Canon S) :
    pk.verify C P msg (C.enc (bp C r) ++ S) = true ↔
      sv S = r + ((leNat (P.sha512 (C.enc (bp C r) ++ pk.key ++ msg)) : Nat) : F) * s := by
  unfold Pub.verify verifyDetached
  simp only [List.take_left' (C.enc_length _), List.drop_left' (C.enc_length _)]
  rw [if_neg (by have := hS.2; omega), bp_not_small C r hr]
  rw [hpk]
  simp only [bp_not_small C s hs, C.canonical_enc, C.dec_enc, Bool.false_eq_true, if_false, Bool.not_true, Bool.or_self,
    decide_eq_true_eq]
  generalize leNat (P.sha512 (C.enc (bp C r) ++ C.enc (bp C s) ++ msg)) = hash at *
  have e2 : (hash % ellL) • bp C s = bp C ((hash : F) * s) := by
    rw [bp_mul, ZMod.natCast_mod]
  have e1 : leNat S • C.B = bp C (sv S) := by rw [sv, bp_natCast]
  rw [e1, e2]
  constructor
  · intro e
    have e := C.enc_inj e
    have : bp C (sv S) = bp C (r + (hash : F) * s) := by rw [bp_add, ← e]; abel
    exact (bp_inj C).mp this
  · intro e
    rw [e, bp_add, add_sub_cancel_right]

theorem verify_of (C : Curve) (P : Prims) (pk : Pub) (msg S : Bytes) (s r : F) (hpk : pk.key = C.enc (bp C s)) (hs : s ≠ 0)
    (hr : r ≠ 0) (hS : Canon S)
    (he : sv S = r + ((leNat (P.sha512 (C.enc (bp C r) ++ pk.key ++ msg)) : Nat) : F) * s) :
    pk.verify C P msg (C.enc (bp C r) ++ S) = true := (verify_iff C P pk msg S s r hpk hs hr hS).mpr he

theorem forall₂_sum (C : Curve) {parties : List Party} {rs : List (Bytes × Bytes)}
    (hcom : List.Forall₂ (fun p r => commitmentFromNonce C p.nonce = .ok r) parties rs) :
    rs.map Prod.fst = (rs.map (fun r => sv r.2)).map (fun x => C.enc (bp C x)) ∧
    (rs.map (fun r => sv r.2)).sum = (((parties.map (fun p => leNat p.nonce)).sum : Nat) : F) := by
  induction hcom with
  | nil => simp
  | cons h _ ih =>
    obtain ⟨_, h2, h3⟩ := commitment_eq h
    refine ⟨?_, ?_⟩
    · rw [List.map_cons, List.map_cons, List.map_cons, ih.1, h3]
    · rw [List.map_cons, List.sum_cons, ih.2, h2]; simp

theorem aggregate_perm (C : Curve) (xs : List F) (hne : xs ≠ []) (comms : List Bytes)
    (h : comms.Perm (xs.map (fun x => C.enc (bp C x)))) : aggregateCommitments C comms = .ok (C.enc (bp C xs.sum)) := by
  obtain ⟨ys, hy⟩ := exists_map (fun x => C.enc (bp C x)) comms (fun y hy => by
      obtain ⟨x, _, hx⟩ := List.mem_map.mp (h.mem_iff.mp hy)
      exact ⟨x, hx⟩)
  have hp : ys.Perm xs := (List.map_perm_map_iff (enc_bp_inj C)).mp (hy ▸ h)
  rw [← hp.sum_eq, hy]
  cases ys with
  | nil => exact absurd hp.symm.eq_nil hne
  | cons y ys =>
    rw [List.map_cons, aggregateCommitments, sumPoints_spec]; simp

/-- **C38**, exactly when it works. The signature that a group of participants makes verifies if and only if
their coefficient-weighted key shares add up to the secret of the group key (or the challenge hash is 0
modulo the group order): for every message, every nonces whose sum is not 0 modulo the group order, and
whatever the order in which the commitments and the signature shares are aggregated. -/
theorem C38_verifies_iff (C : Curve) (P : Prims) (parties : List Party) (hne : parties ≠ []) (s : Nat) (pk : Pub)
    (hpk : pk.key = C.enc (s • C.B)) (hs : ¬ ellL ∣ s)
    (rs : List (Bytes × Bytes)) (hcom : List.Forall₂ (fun p r => commitmentFromNonce C p.nonce = .ok r) parties rs)
    (hr : ¬ ellL ∣ (parties.map (fun p => leNat p.nonce)).sum)
    (comms : List Bytes) (hcp : comms.Perm (rs.map Prod.fst)) (msg : Bytes) :
    ∃ R, aggregateCommitments C comms = .ok R ∧
      ∀ sigs : List Bytes,
        sigs.Perm (List.zipWith (fun p (r : Bytes × Bytes) => signatureShareCoef P msg r.2 R p.coef pk p.share) parties rs) →
        ∃ sig, aggregateSignatures sigs = .ok sig ∧ sig.length = 64 ∧ sig.take 32 = R ∧
          (pk.verify C P msg sig = true ↔ ellL ∣ leNat (P.sha512 (R ++ pk.key ++ msg)) ∨
            (parties.map (fun p => leNat p.coef * kL p.share.key.key)).sum % ellL = s % ellL) := by
  obtain ⟨h1, h2⟩ := forall₂_sum C hcom
  rw [h1] at hcp
  have hlen := hcom.length_eq
  have hrne : rs.map (fun r => sv r.2) ≠ [] := by
    intro e
    have : rs.length = 0 := by have := congrArg List.length e; simpa using this
    rw [this] at hlen
    exact hne (List.length_eq_zero_iff.mp hlen)
  refine ⟨_, aggregate_perm C _ hrne comms hcp, ?_⟩
  rw [h2]
  generalize hrr : (((parties.map (fun p => leNat p.nonce)).sum : Nat) : F) = r at *
  have hr0 : r ≠ 0 := by rw [← hrr]; exact fun e => hr ((dvd_iff _).mpr e)
  intro sigs hsp
  have htake : ∀ sig ∈ sigs, sig.take 32 = C.enc (bp C r) := by
    intro sig hsig
    have hm := hsp.mem_iff.mp hsig
    rw [← List.map_uncurry_zip_eq_zipWith] at hm
    obtain ⟨⟨p, q⟩, _, rfl⟩ := List.mem_map.mp hm
    exact (sigShare_spec P msg _ _ _ (C.enc_length _) pk _).1
  have hsne : sigs ≠ [] := by
    rintro rfl
    have := hsp.length_eq
    rw [List.length_zipWith, ← hlen, Nat.min_self] at this
    exact hne (List.length_eq_zero_iff.mp this.symm)
  have hcan := sumSigs_canon sigs zero canon_zero
  refine ⟨_, aggregate_eq hsne htake, by rw [List.length_append, C.enc_length, hcan.1], List.take_left' (C.enc_length _), ?_⟩
  have hs0 : (s : F) ≠ 0 := fun e => hs ((dvd_iff _).mpr e)
  rw [verify_iff C P pk msg _ (s : F) r (by rw [hpk, bp_natCast]) hs0 hr0 hcan]
  rw [sumSigs_sv _ _ canon_zero, sv_zero, zero_add, (hsp.map _).sum_eq]
  have hsum' : (parties.map (fun p => sv p.coef * sv (keyScalar p.share.key))).sum =
      ((parties.map (fun p => leNat p.coef * kL p.share.key.key)).sum : F) := by
    clear hsp htake hsne hcp hr hrr hrne h2 h1 hcom hne hlen
    induction parties with
    | nil => simp
    | cons p ps ih => rw [List.map_cons, List.sum_cons, ih, List.map_cons, List.sum_cons, sv_keyScalar]; push_cast; rfl
  have hterm : ∀ (R : Bytes) (kk : F), R.length = 32 → kk = ((leNat (P.sha512 (R ++ pk.key ++ msg)) : Nat) : F) →
      ((List.zipWith (fun p (r : Bytes × Bytes) => signatureShareCoef P msg r.2 R p.coef pk p.share) parties rs).map
        (fun sig => ((leNat (sig.drop 32) : Nat) : F))).sum =
      (rs.map (fun r => sv r.2)).sum + kk * (parties.map (fun p => sv p.coef * sv (keyScalar p.share.key))).sum := by
    intro R kk hR hkk
    clear hsp htake hsne hcp hr hrr hrne h2 h1 hne hlen hsum'
    induction hcom with
    | nil => simp
    | cons h _ ih =>
      rw [List.zipWith_cons_cons, List.map_cons, List.sum_cons, ih, (sigShare_spec P msg _ R _ hR pk _).2.2, ← hkk]
      simp only [List.map_cons, List.sum_cons]
      ring
  rw [hterm _ _ (C.enc_length _) rfl, h2, add_right_inj, hsum', ← sub_eq_zero, ← mul_sub, mul_eq_zero, sub_eq_zero, ← cast_eq_iff,
    dvd_iff]

/-- **C38**, general form. Any group of participants whose coefficient-weighted key shares
add up to the secret of the group key produces a signature that verifies: for every message,
every nonces whose sum is not 0 modulo the group order, and whatever the order in which the
commitments and the signature shares are aggregated. -/
theorem C38_signature_verifies (C : Curve) (P : Prims) (parties : List Party) (hne : parties ≠ []) (s : Nat) (pk : Pub)
    (hpk : pk.key = C.enc (s • C.B)) (hs : ¬ ellL ∣ s)
    (hsum : (parties.map (fun p => leNat p.coef * kL p.share.key.key)).sum % ellL = s % ellL)
    (rs : List (Bytes × Bytes)) (hcom : List.Forall₂ (fun p r => commitmentFromNonce C p.nonce = .ok r) parties rs)
    (hr : ¬ ellL ∣ (parties.map (fun p => leNat p.nonce)).sum)
    (comms : List Bytes) (hcp : comms.Perm (rs.map Prod.fst)) (msg : Bytes) :
    ∃ R, aggregateCommitments C comms = .ok R ∧
      ∀ sigs : List Bytes,
        sigs.Perm (List.zipWith (fun p (r : Bytes × Bytes) => signatureShareCoef P msg r.2 R p.coef pk p.share) parties rs) →
        ∃ sig, aggregateSignatures sigs = .ok sig ∧ sig.length = 64 ∧ sig.take 32 = R ∧ pk.verify C P msg sig = true := by
  obtain ⟨R, h1, h2⟩ := C38_verifies_iff C P parties hne s pk hpk hs rs hcom hr comms hcp msg
  refine ⟨R, h1, fun sigs hp => ?_⟩
  obtain ⟨sig, g1, g2, g3, g4⟩ := h2 sigs hp
  exact ⟨sig, g1, g2, g3, g4.mpr (.inr hsum)⟩

/-- A commitment call always succeeds, keeps everything but the nonce, and the commitment
belongs to the stored nonce. -/
theorem C38_commitmentShare (C : Curve) (P : Prims) (seed : Bytes) (st : Stateful) :
    ∃ st' c, st.commitmentShare C P seed = .ok (st', c) ∧ st'.msg = st.msg ∧ st'.coef = st.coef ∧ st'.vkey = st.vkey ∧
      st'.share = st.share ∧ commitmentFromNonce C st'.nonce = .ok (c, st'.nonce) ∧
      leNat st'.nonce = leNat (P.sha512 (seed ++ st.share.key.key.drop 32 ++ st.msg)) % ellL := by
  unfold Stateful.commitmentShare commitmentAndNonce
  obtain ⟨r, h1, h2, h3⟩ := (C38_commitment C (P.sha512 (seed ++ st.share.key.key.drop 32 ++ st.msg))).2 (.inr (P.sha512_length _))
  rw [h1]
  simp only [Out.ok_bind]
  refine ⟨_, _, rfl, rfl, rfl, rfl, rfl, ?_, h3⟩
  have hc : Canon r := ⟨h2, by rw [h3]; exact Nat.mod_lt _ ellL_pos⟩
  unfold commitmentFromNonce
  simp only [h2, ne_eq, not_true_eq_false, decide_false, Bool.false_and, Bool.false_eq_true, if_false]
  rw [if_neg (by decide), reduce32_canon hc, mulBase_eq C hc, sv, bp_natCast, h3, mod_ell_smul]

theorem stateful_outs (C : Curve) : ∀ outs : List (Stateful × Bytes),
    (∀ o ∈ outs, commitmentFromNonce C o.1.nonce = .ok (o.2, o.1.nonce)) →
    List.Forall₂ (fun p r => commitmentFromNonce C p.nonce = .ok r)
      (outs.map (fun o => (⟨o.1.share, o.1.coef, o.1.nonce⟩ : Party))) (outs.map (fun o => (o.2, o.1.nonce))) := by
  intro outs
  induction outs with
  | nil => intro _; simp
  | cons o os ih => intro h; exact .cons (h o (by simp)) (ih (fun o ho => h o (by simp [ho])))

/-- **C38** for `StatefulSigner` objects, after each has made its commitment: exactly when it works. -/
theorem C38_stateful_iff (C : Curve) (P : Prims) (outs : List (Stateful × Bytes)) (hne : outs ≠ []) (s : Nat) (pk : Pub)
    (msg : Bytes) (hpk : pk.key = C.enc (s • C.B)) (hs : ¬ ellL ∣ s)
    (hout : ∀ o ∈ outs, ∃ (st : Stateful) (seed : Bytes), st.commitmentShare C P seed = .ok o ∧ st.msg = msg ∧ st.vkey = pk)
    (hr : ¬ ellL ∣ (outs.map (fun o => leNat o.1.nonce)).sum)
    (comms : List Bytes) (hcp : comms.Perm (outs.map Prod.snd)) :
    ∃ R, aggregateCommitments C comms = .ok R ∧
      ∀ sigs : List Bytes, sigs.Perm (outs.map (fun o => o.1.signatureShare P R)) →
        ∃ sig, aggregateSignatures sigs = .ok sig ∧ sig.length = 64 ∧ sig.take 32 = R ∧
          (pk.verify C P msg sig = true ↔ ellL ∣ leNat (P.sha512 (R ++ pk.key ++ msg)) ∨
            (outs.map (fun o => leNat o.1.coef * kL o.1.share.key.key)).sum % ellL = s % ellL) ∧
          ∀ o ∈ outs, o.1.verifySignature C P sig = pk.verify C P msg sig := by
  have hfix : ∀ o ∈ outs, commitmentFromNonce C o.1.nonce = .ok (o.2, o.1.nonce) ∧ o.1.msg = msg ∧ o.1.vkey = pk := by
    intro o ho
    obtain ⟨st, seed, h, hm, hv⟩ := hout o ho
    obtain ⟨st', c, h1, h2, h3, h4, h5, h6, _⟩ := C38_commitmentShare C P seed st
    rw [h] at h1
    obtain rfl := Out.ok.inj h1
    exact ⟨h6, h2.trans hm, h4.trans hv⟩
  obtain ⟨R, hR, hall⟩ := C38_verifies_iff C P (outs.map (fun o => (⟨o.1.share, o.1.coef, o.1.nonce⟩ : Party)))
    (by simpa using hne) s pk hpk hs (outs.map (fun o => (o.2, o.1.nonce)))
    (stateful_outs C outs (fun o ho => (hfix o ho).1)) (by rw [List.map_map]; exact hr) comms
    (by rw [List.map_map]; exact hcp) msg
  refine ⟨R, hR, fun sigs hsig => ?_⟩
  have hz : List.zipWith (fun (p : Party) (r : Bytes × Bytes) => signatureShareCoef P msg r.2 R p.coef pk p.share)
      (outs.map (fun o => (⟨o.1.share, o.1.coef, o.1.nonce⟩ : Party))) (outs.map (fun o => (o.2, o.1.nonce))) =
      outs.map (fun o => o.1.signatureShare P R) := by
    rw [List.zipWith_map, List.zipWith_self]
    apply List.map_congr_left
    intro o ho
    unfold Stateful.signatureShare
    rw [(hfix o ho).2.1, (hfix o ho).2.2]
  obtain ⟨sig, h1, h2, h3, h4⟩ := hall sigs (by rw [hz]; exact hsig)
  refine ⟨sig, h1, h2, h3, by rw [h4, List.map_map]; rfl, fun o ho => ?_⟩
  unfold Stateful.verifySignature
  rw [(hfix o ho).2.1, (hfix o ho).2.2]

/-- **C38** for `StatefulSigner` objects, after each has made its commitment. -/
theorem C38_stateful (C : Curve) (P : Prims) (outs : List (Stateful × Bytes)) (hne : outs ≠ []) (s : Nat) (pk : Pub)
    (msg : Bytes) (hpk : pk.key = C.enc (s • C.B)) (hs : ¬ ellL ∣ s)
    (hout : ∀ o ∈ outs, ∃ (st : Stateful) (seed : Bytes), st.commitmentShare C P seed = .ok o ∧ st.msg = msg ∧ st.vkey = pk)
    (hsum : (outs.map (fun o => leNat o.1.coef * kL o.1.share.key.key)).sum % ellL = s % ellL)
    (hr : ¬ ellL ∣ (outs.map (fun o => leNat o.1.nonce)).sum)
    (comms : List Bytes) (hcp : comms.Perm (outs.map Prod.snd)) :
    ∃ R, aggregateCommitments C comms = .ok R ∧
      ∀ sigs : List Bytes, sigs.Perm (outs.map (fun o => o.1.signatureShare P R)) →
        ∃ sig, aggregateSignatures sigs = .ok sig ∧ sig.length = 64 ∧ sig.take 32 = R ∧ pk.verify C P msg sig = true ∧
          ∀ o ∈ outs, o.1.verifySignature C P sig = true := by
  obtain ⟨R, h1, h2⟩ := C38_stateful_iff C P outs hne s pk msg hpk hs hout hr comms hcp
  refine ⟨R, h1, fun sigs hp => ?_⟩
  obtain ⟨sig, g1, g2, g3, g4, g5⟩ := h2 sigs hp
  have hv := g4.mpr (.inr hsum)
  exact ⟨sig, g1, g2, g3, hv, fun o ho => (g5 o ho).trans hv⟩

theorem commit_map {C : Curve} {P : Prims} {α : Type} (f : α → Stateful) (g : α → Bytes) {xs : List α} {outs : List (Stateful × Bytes)}
    (h : List.Forall₂ (fun x o => (f x).commitmentShare C P (g x) = .ok o) xs outs) :
    outs.map (fun o => leNat o.1.coef * kL o.1.share.key.key) = xs.map (fun x => leNat (f x).coef * kL (f x).share.key.key) ∧
    ∀ o ∈ outs, ∃ x ∈ xs, (f x).commitmentShare C P (g x) = .ok o := by
  induction h with
  | nil => simp
  | @cons x o l1 l2 hx _ ih =>
    obtain ⟨st', c, h1, h2, h3, h4, h5, h6, _⟩ := C38_commitmentShare C P (g x) (f x)
    rw [hx] at h1
    obtain rfl := Out.ok.inj h1
    refine ⟨?_, ?_⟩
    · rw [List.map_cons, List.map_cons, ih.1, h3, h5]
    · intro o ho
      rcases List.mem_cons.mp ho with rfl | ho
      · exact ⟨x, by simp, hx⟩
      · obtain ⟨y, hy, e⟩ := ih.2 o ho
        exact ⟨y, by simp [hy], e⟩

theorem sum_zip_coef : ∀ (sub : List KeyShare) (cs : List Bytes) (seeds : List Bytes), seeds.length = sub.length →
    cs.length = sub.length →
    ((((sub.zip cs).zip seeds).map (fun x => leNat x.1.2 * kL x.1.1.key.key)).sum : F) =
      (List.zipWith (fun c k => sv c * sv (keyScalar k.key)) cs sub).sum := by
  intro sub
  induction sub with
  | nil => intro cs seeds _ _; simp
  | cons k ks ih =>
    intro cs seeds h1 h2
    cases cs with
    | nil => simp at h2
    | cons c cs =>
      cases seeds with
      | nil => simp at h1
      | cons d ds =>
        have := ih cs ds (by simpa using h1) (by simpa using h2)
        simp only [List.zip_cons_cons, List.map_cons, List.sum_cons, List.zipWith_cons_cons, Nat.cast_add, this]
        rw [sv_keyScalar]; push_cast; rfl

/-- **C38** (Shamir): take any dealing and any list of at least `t` dealt shares with
different ids. If each holder signs with its share and the Lagrange coefficient for that
group, the aggregate verifies under the root public key and every signer accepts it. -/
theorem C38_shamir (C : Curve) (P : Prims) (root : Prv) (n t : UInt32) (ht : 1 ≤ t.toNat) (coefs : List Bytes)
    (hl : coefs.length = t.toNat - 1) (pub : Pub) (keys : List KeyShare)
    (h : shamirSplit C P root n t coefs = .ok (pub, keys))
    (sub : List KeyShare) (hsub : ∀ k ∈ sub, k ∈ keys) (hnd : (sub.map KeyShare.id).Nodup) (hlen : t.toNat ≤ sub.length)
    (cs : List Bytes) (hcs : computeLagrange (sub.map KeyShare.id) = .ok cs)
    (msg : Bytes) (seeds : List Bytes) (hseeds : seeds.length = sub.length) (outs : List (Stateful × Bytes))
    (hout : List.Forall₂ (fun (x : (KeyShare × Bytes) × Bytes) o =>
      (statefulCoef msg pub x.1.1 x.1.2).commitmentShare C P x.2 = .ok o) ((sub.zip cs).zip seeds) outs)
    (hr : ¬ ellL ∣ (outs.map (fun o => leNat o.1.nonce)).sum)
    (comms : List Bytes) (hcp : comms.Perm (outs.map Prod.snd)) :
    root.publicKey C = .ok pub ∧
    ∃ R, aggregateCommitments C comms = .ok R ∧
      ∀ sigs : List Bytes, sigs.Perm (outs.map (fun o => o.1.signatureShare P R)) →
        ∃ sig, aggregateSignatures sigs = .ok sig ∧ sig.length = 64 ∧ sig.take 32 = R ∧ pub.verify C P msg sig = true ∧
          ∀ o ∈ outs, o.1.verifySignature C P sig = true := by
  obtain ⟨h0, hc⟩ := shamirSplit_ok h
  obtain ⟨pub', keys', h1, hpub, h2, h3⟩ := shamirSplit_spec C P root n t coefs hl h0 hc
  rw [h] at h1
  obtain ⟨rfl, rfl⟩ := Prod.mk.inj (Out.ok.inj h1)
  have hids : ∀ k ∈ sub, 1 ≤ k.id ∧ k.id < 2 ^ 64 := by
    intro k hk
    have : k.id ∈ shareIds n := by rw [← h2]; exact List.mem_map_of_mem (hsub k hk)
    have := shareIds_mem this
    exact ⟨this.1, this.2.2⟩
  obtain ⟨cs', hcs', hcan, hint⟩ := (C39_computeLagrange (sub.map KeyShare.id) (by
    intro x hx
    obtain ⟨k, hk, rfl⟩ := List.mem_map.mp hx
    exact (hids k hk).2)).2 (by
      intro hx
      obtain ⟨k, hk, e⟩ := List.mem_map.mp hx
      have := (hids k hk).1; omega) hnd
  rw [hcs] at hcs'
  obtain rfl := Out.ok.inj hcs'
  have hclen : cs.length = sub.length := by simpa using hint.1
  refine ⟨hpub, ?_⟩
  obtain ⟨hd, rfl⟩ := publicKey_ok hpub
  obtain ⟨hm, hmem⟩ := commit_map (fun x : (KeyShare × Bytes) × Bytes => statefulCoef msg _ x.1.1 x.1.2) (fun x => x.2) hout
  have hlo : outs.length = sub.length := by
    rw [← hout.length_eq, List.length_zip, List.length_zip, hclen, hseeds]; simp
  refine C38_stateful C P outs (by
      rintro rfl
      simp at hlo; omega) (kL root.key) _ msg rfl hd ?_ ?_ hr comms hcp
  · intro o ho
    obtain ⟨x, _, hx⟩ := hmem o ho
    exact ⟨_, _, hx, rfl, rfl⟩
  · rw [← cast_eq_iff, hm]
    show ((((sub.zip cs).zip seeds).map (fun x => leNat x.1.2 * kL x.1.1.key.key)).sum : F) = _
    rw [sum_zip_coef sub cs seeds hseeds hclen, zip_shares _ cs sub (fun k hk => (h3 k (hsub k hk)).2.1), hint.2,
      ofCoeffs_eval_zero]
    refine lt_of_lt_of_le (ofCoeffs_degree _) ?_
    have : ((kL root.key : F) :: coefs.map sv).length ≤ (sub.map KeyShare.id).length := by simp [hl]; omega
    exact_mod_cast this

/-- **C38** (Direct, at least two shares): if all share holders sign, without coefficients,
the aggregate verifies under the public key returned by the dealer, which is the root's. -/
theorem C38_direct_partial (C : Curve) (P : Prims) (rand : Nat → Bytes) (root : Prv) (n : UInt32) (hn : 2 ≤ n.toNat)
    (pub p : Pub) (keys : List KeyShare) (h : directSplit C P rand root n = .ok (pub, keys)) (hp : root.publicKey C = .ok p)
    (msg : Bytes) (seeds : List Bytes) (hseeds : seeds.length = keys.length) (outs : List (Stateful × Bytes))
    (hout : List.Forall₂ (fun (x : KeyShare × Bytes) o =>
      (stateful msg pub x.1).commitmentShare C P x.2 = .ok o) (keys.zip seeds) outs)
    (hr : ¬ ellL ∣ (outs.map (fun o => leNat o.1.nonce)).sum)
    (comms : List Bytes) (hcp : comms.Perm (outs.map Prod.snd)) :
    ∃ R, aggregateCommitments C comms = .ok R ∧
      ∀ sigs : List Bytes, sigs.Perm (outs.map (fun o => o.1.signatureShare P R)) →
        ∃ sig, aggregateSignatures sigs = .ok sig ∧ sig.length = 64 ∧ sig.take 32 = R ∧ p.verify C P msg sig = true ∧
          pub.verify C P msg sig = true ∧ ∀ o ∈ outs, o.1.verifySignature C P sig = true := by
  have hkey := C37_direct_public_key_partial C P rand root n hn pub p keys h hp
  have hsum := C37_direct_sum C P rand root n (by omega) pub keys h
  have hids := C40_direct_ids C P rand root n (by omega) pub keys h
  have hkl : keys.length = n.toNat := by rw [← List.length_map (f := KeyShare.id), hids, List.length_range']
  obtain ⟨hd, rfl⟩ := publicKey_ok hp
  obtain ⟨hm, hmem⟩ := commit_map (fun x : KeyShare × Bytes => stateful msg pub x.1) (fun x => x.2) hout
  have hlo : outs.length = keys.length := by
    rw [← hout.length_eq, List.length_zip, hseeds]; simp
  obtain ⟨R, hR, hall⟩ := C38_stateful C P outs (by
      rintro rfl
      simp at hlo; omega) (kL root.key) pub msg hkey hd (by
    intro o ho
    obtain ⟨x, _, hx⟩ := hmem o ho
    exact ⟨_, _, hx, rfl, rfl⟩) (by
    rw [hm, ← hsum]
    congr 2
    have e1 : leNat (1 :: List.replicate 31 0) = 1 := by decide
    have : (fun x : KeyShare × Bytes => leNat (stateful msg pub x.1).coef * kL (stateful msg pub x.1).share.key.key) =
        (fun k : KeyShare => kL k.key.key) ∘ Prod.fst := by
      funext x
      show leNat (1 :: List.replicate 31 0) * kL x.1.key.key = kL x.1.key.key
      rw [e1, Nat.one_mul]
    rw [this, ← List.map_map, List.map_fst_zip (by omega)]) hr comms hcp
  refine ⟨R, hR, fun sigs hs => ?_⟩
  obtain ⟨sig, a1, a2, a3, a4, a5⟩ := hall sigs hs
  refine ⟨sig, a1, a2, a3, ?_, a4, a5⟩
  unfold Pub.verify at a4 ⊢
  rw [← hkey]; exact a4

/-- **C38** fails for `n = 1` with direct sharing: the dealer hands out a wrong public key, and
the signature made for it does not verify under it (unless the challenge hash is 0). -/
theorem C38_direct_single_fails (C : Curve) (P : Prims) (rand : Nat → Bytes) (root : Prv)
    (pub p : Pub) (keys : List KeyShare) (h : directSplit C P rand root 1 = .ok (pub, keys)) (hp : root.publicKey C = .ok p)
    (msg seed : Bytes) (k : KeyShare) (hk : keys = [k]) (st : Stateful) (R : Bytes)
    (hc : (stateful msg pub k).commitmentShare C P seed = .ok (st, R))
    (hh : ¬ ellL ∣ leNat (P.sha512 (R ++ pub.key ++ msg))) :
    ∃ sig, aggregateSignatures [st.signatureShare P R] = .ok sig ∧ pub.verify C P msg sig = false := by
  obtain ⟨hkey, _⟩ := C37_single_share_wrong_key C P rand root pub p keys h hp
  have hsum := C37_direct_sum C P rand root 1 (by decide) pub keys h
  obtain ⟨st', c, h1, h2, h3, h4, h5, h6, _⟩ := C38_commitmentShare C P seed (stateful msg pub k)
  rw [hc] at h1
  obtain ⟨rfl, rfl⟩ := Prod.mk.inj (Out.ok.inj h1)
  obtain ⟨c1, c2, c3⟩ := commitment_eq h6
  dsimp only at c1 c2 c3
  have hR : R.length = 32 := by rw [c3]; exact C.enc_length _
  have hcoef : sv (stateful msg pub k).coef = 1 := by
    show ((leNat (1 :: List.replicate 31 0) : Nat) : F) = 1
    have : leNat (1 :: List.replicate 31 0) = 1 := by decide
    rw [this, Nat.cast_one]
  have hss : st.signatureShare P R = signatureShareCoef P msg st.nonce R (stateful msg pub k).coef pub k := by
    unfold Stateful.signatureShare
    rw [h2, h3, h4, h5]; rfl
  obtain ⟨a1, a2, a3⟩ := sigShare_spec P msg st.nonce R (stateful msg pub k).coef hR pub k
  rw [← hss] at a1 a2 a3
  refine ⟨_, aggregate_eq (R := R) (by simp) (by simpa using a1), ?_⟩
  have hcan := sumSigs_canon [st.signatureShare P R] zero canon_zero
  have hS : sv (sumSigs [st.signatureShare P R] zero) = sv st.nonce +
      ((leNat (P.sha512 (R ++ pub.key ++ msg)) : Nat) : F) * ((kL root.key : Nat) : F) := by
    rw [sumSigs_sv _ _ canon_zero, sv_zero, zero_add, List.map_cons, List.map_nil, List.sum_cons, List.sum_nil, add_zero, a3,
      hcoef, one_mul, sv_keyScalar]
    rw [hk, ← cast_eq_iff] at hsum
    simp only [List.map_cons, List.map_nil, List.sum_cons, List.sum_nil, Nat.add_zero] at hsum
    rw [hsum]
  have hkey' : pub.key = C.enc (bp C (((kL root.key : Nat) : F) + 1)) := by
    rw [hkey, ← bp_natCast]; push_cast; rfl
  unfold Pub.verify verifyDetached
  simp only [List.take_left' hR, List.drop_left' hR]
  rw [if_neg (by have := hcan.2; omega)]
  split
  · rfl
  · split
    · rfl
    · conv_lhs => rw [hkey', C.dec_enc]
      simp only [decide_eq_false_iff_not]
      rw [← hkey']
      generalize hG : leNat (P.sha512 (R ++ pub.key ++ msg)) = hash at *
      rw [bp_mul, ZMod.natCast_mod, ← bp_natCast C (leNat (sumSigs [st.signatureShare P R] zero))]
      intro e
      conv_rhs at e => rw [c3]
      have e := C.enc_inj e
      have e2 : bp C (((leNat (sumSigs [st.signatureShare P R] zero)) : Nat) : F) =
          bp C (sv st.nonce + (hash : F) * (((kL root.key : Nat) : F) + 1)) := by
        rw [bp_add, ← e]; abel
      rw [bp_inj] at e2
      rw [sv] at hS
      rw [hS] at e2
      apply hh
      rw [dvd_iff]
      linear_combination -e2

/-- **C38**: with the coefficient given at signing time the share's scalar is
`nonce + H(R ‖ vkey ‖ msg) · coef · share` (mod the group order) for that coefficient, whatever
the one stored at construction. -/
theorem C38_coefficient_at_signing (P : Prims) (st : Stateful) (R coef : Bytes) (hR : R.length = 32) :
    (st.signatureShareCoef P R coef).take 32 = R ∧ (st.signatureShareCoef P R coef).length = 64 ∧
    leNat ((st.signatureShareCoef P R coef).drop 32) % ellL =
      (leNat st.nonce + leNat (P.sha512 (R ++ st.vkey.key ++ st.msg)) * (leNat coef * kL st.share.key.key)) % ellL := by
  obtain ⟨h1, h2, h3⟩ := sigShare_spec P st.msg st.nonce R coef hR st.vkey st.share
  refine ⟨h1, h2, ?_⟩
  rw [← cast_eq_iff]
  push_cast
  rw [sv_keyScalar] at h3
  exact h3

/-- A seed split is the split of the root key derived from that seed. -/
theorem C37_splitSeed (C : Curve) (P : Prims) (d : Dealer) (rand coef : Nat → Bytes) (seed : Bytes) (root : Prv)
    (h : Bip32.fromSeed P seed = .ok root) :
    d.splitSeed C P rand coef seed = d.splitRootKey C P rand coef root := by
  unfold Dealer.splitSeed
  rw [h]; rfl

/-! ### C42: the signer's nonce over a call history -/

/-- Calls on a `StatefulSigner`. -/
inductive Call where
  | commit (seed : Bytes)
  | sign (agg : Bytes)
  | signCoef (agg coef : Bytes)

/-- What a call returned. -/
inductive Ret where
  | commitment (c : Bytes)
  | share (sig : Bytes)

/-- Run one call. -/
def runCall (C : Curve) (P : Prims) (st : Stateful) : Call → Out (Stateful × Ret)
  | .commit seed => do
    let r ← st.commitmentShare C P seed
    return (r.1, .commitment r.2)
  | .sign agg => .ok (st, .share (st.signatureShare P agg))
  | .signCoef agg coef => .ok (st, .share (st.signatureShareCoef P agg coef))

/-- Run a history. -/
def runCalls (C : Curve) (P : Prims) : Stateful → List Call → Out (Stateful × List Ret)
  | st, [] => .ok (st, [])
  | st, c :: cs => do
    let r ← runCall C P st c
    let rs ← runCalls C P r.1 cs
    return (rs.1, r.2 :: rs.2)

/-- Nonce after a history: that of the last commitment call, the initial one if none. -/
def lastNonce (P : Prims) (share : KeyShare) (msg : Bytes) : List Call → Nat → Nat
  | [], r => r
  | .commit seed :: cs, _ => lastNonce P share msg cs (leNat (P.sha512 (seed ++ share.key.key.drop 32 ++ msg)) % ellL)
  | _ :: cs, r => lastNonce P share msg cs r

theorem runCalls_spec (C : Curve) (P : Prims) : ∀ (calls : List Call) (st : Stateful), ∃ st' rets,
    runCalls C P st calls = .ok (st', rets) ∧ rets.length = calls.length ∧ st'.msg = st.msg ∧ st'.coef = st.coef ∧
    st'.vkey = st.vkey ∧ st'.share = st.share ∧ leNat st'.nonce = lastNonce P st.share st.msg calls (leNat st.nonce) := by
  intro calls
  induction calls with
  | nil => intro st; exact ⟨st, [], rfl, rfl, rfl, rfl, rfl, rfl, rfl⟩
  | cons c cs ih =>
    intro st
    cases c with
    | commit seed =>
      obtain ⟨s1, c1, a1, a2, a3, a4, a5, _, a6⟩ := C38_commitmentShare C P seed st
      obtain ⟨s2, rs, b1, b2, b3, b4, b5, b6, b7⟩ := ih s1
      refine ⟨s2, .commitment c1 :: rs, ?_, by simp [b2], b3.trans a2, b4.trans a3, b5.trans a4, b6.trans a5, ?_⟩
      · simp only [runCalls, runCall, a1, Out.ok_bind, Out.pure_eq, b1]
      · rw [b7, a6, a5, a2]; rfl
    | sign agg =>
      obtain ⟨s2, rs, b1, b2, b3, b4, b5, b6, b7⟩ := ih st
      refine ⟨s2, .share (st.signatureShare P agg) :: rs, ?_, by simp [b2], b3, b4, b5, b6, b7⟩
      simp only [runCalls, runCall, Out.ok_bind, Out.pure_eq, b1]
    | signCoef agg coef =>
      obtain ⟨s2, rs, b1, b2, b3, b4, b5, b6, b7⟩ := ih st
      refine ⟨s2, .share (st.signatureShareCoef P agg coef) :: rs, ?_, by simp [b2], b3, b4, b5, b6, b7⟩
      simp only [runCalls, runCall, Out.ok_bind, Out.pure_eq, b1]

/-- **C42** (partial: what does hold). After any call history the next signature share is for
the message, group key and key share fixed at construction, and its second half is
`r + H(R ‖ A ‖ m)·c·k` with `r` the nonce of the latest commitment (0 before any). Missing:
nothing makes the nonce single-use, see the two theorems below. -/
theorem C42_history_partial (C : Curve) (P : Prims) (msg : Bytes) (vkey : Pub) (share : KeyShare) (coef : Bytes)
    (calls : List Call) (R : Bytes) (hR : R.length = 32) :
    ∃ st rets, runCalls C P (statefulCoef msg vkey share coef) calls = .ok (st, rets) ∧ rets.length = calls.length ∧
      (st.signatureShare P R).length = 64 ∧ (st.signatureShare P R).take 32 = R ∧
      leNat ((st.signatureShare P R).drop 32) =
        (lastNonce P share msg calls 0 + leNat (P.sha512 (R ++ vkey.key ++ msg)) * (leNat coef * kL share.key.key)) % ellL := by
  obtain ⟨st, rets, h1, h2, h3, h4, h5, h6, h7⟩ := runCalls_spec C P calls (statefulCoef msg vkey share coef)
  refine ⟨st, rets, h1, h2, ?_⟩
  unfold Stateful.signatureShare
  rw [h3, h4, h5, h6]
  obtain ⟨a1, a2, a3⟩ := sigShare_spec P msg st.nonce R coef hR vkey share
  refine ⟨a2, a1, ?_⟩
  have hlt : leNat ((signatureShareCoef P msg st.nonce R coef vkey share).drop 32) < ellL := by
    unfold signatureShareCoef; dsimp only; rw [List.drop_left' hR]; exact (canon_add _ _).2
  show leNat ((signatureShareCoef P msg st.nonce R coef vkey share).drop 32) = _
  rw [← Nat.mod_eq_of_lt hlt, ← cast_eq_iff, a3, sv, h7, sv_keyScalar, sv]
  have : leNat (statefulCoef msg vkey share coef).nonce = 0 := by
    show leNat (List.replicate 32 0) = 0
    rw [leNat_zeros]
  rw [this]
  push_cast; rfl

/-- **C42** fails: signing before any commitment call uses nonce 0, so the share alone
reveals the weighted key share (unless the challenge is 0): `k = S / (H·c)`. -/
theorem C42_sign_before_commit_leaks (P : Prims) (msg : Bytes) (vkey : Pub) (share : KeyShare) (coef R : Bytes)
    (hR : R.length = 32) (hh : ¬ ellL ∣ leNat (P.sha512 (R ++ vkey.key ++ msg))) (hc : ¬ ellL ∣ leNat coef) :
    ((kL share.key.key : Nat) : F) = ((leNat (((statefulCoef msg vkey share coef).signatureShare P R).drop 32) : Nat) : F) /
      (((leNat (P.sha512 (R ++ vkey.key ++ msg)) : Nat) : F) * (leNat coef : F)) := by
  unfold Stateful.signatureShare
  show _ = ((leNat ((signatureShareCoef P msg (List.replicate 32 0) R coef vkey share).drop 32) : Nat) : F) / _
  rw [(sigShare_spec P msg _ R coef hR vkey share).2.2]
  have h0 : sv (List.replicate 32 0) = 0 := by rw [sv, leNat_zeros]; simp
  rw [h0, zero_add, sv_keyScalar]
  have h1 : ((leNat (P.sha512 (R ++ vkey.key ++ msg)) : Nat) : F) ≠ 0 := fun e => hh ((dvd_iff _).mpr e)
  have h2 : (leNat coef : F) ≠ 0 := fun e => hc ((dvd_iff _).mpr e)
  show _ = _ * ((leNat coef : F) * _) / _
  field_simp

/-- **C42** fails: two signature calls after one commitment, with different aggregated
commitments, use the same nonce; the two shares reveal the key share:
`k = (S₁ - S₂) / ((H₁ - H₂)·c)`. -/
theorem C42_nonce_reuse_leaks (P : Prims) (st : Stateful) (R₁ R₂ : Bytes)
    (h1 : R₁.length = 32) (h2 : R₂.length = 32) (hc : ¬ ellL ∣ leNat st.coef)
    (hh : leNat (P.sha512 (R₁ ++ st.vkey.key ++ st.msg)) % ellL ≠ leNat (P.sha512 (R₂ ++ st.vkey.key ++ st.msg)) % ellL) :
    ((kL st.share.key.key : Nat) : F) =
      (((leNat ((st.signatureShare P R₁).drop 32) : Nat) : F) - ((leNat ((st.signatureShare P R₂).drop 32) : Nat) : F)) /
      ((((leNat (P.sha512 (R₁ ++ st.vkey.key ++ st.msg)) : Nat) : F) - ((leNat (P.sha512 (R₂ ++ st.vkey.key ++ st.msg)) : Nat) : F)) *
        (leNat st.coef : F)) := by
  unfold Stateful.signatureShare
  rw [(sigShare_spec P st.msg _ R₁ st.coef h1 st.vkey st.share).2.2, (sigShare_spec P st.msg _ R₂ st.coef h2 st.vkey st.share).2.2]
  rw [sv_keyScalar, Ne, ← cast_eq_iff] at *
  generalize ((leNat (P.sha512 (R₁ ++ st.vkey.key ++ st.msg)) : Nat) : F) = a at *
  generalize ((leNat (P.sha512 (R₂ ++ st.vkey.key ++ st.msg)) : Nat) : F) = b at *
  have h3 : (leNat st.coef : F) ≠ 0 := fun e => hc ((dvd_iff _).mpr e)
  have h4 : a - b ≠ 0 := sub_ne_zero.mpr hh
  unfold sv
  field_simp
  ring

/-! ### Concrete cases -/

/-- A 2-of-3 dealing exists, with three shares, and two of them (given in reverse order and
one of them twice) meet the hypotheses of `C35_reconstruct`. -/
example : ∃ root pub keys sub, fromSeed toyPrims [] = .ok root ∧ dealer2 3 2 = .ok ⟨3, 2, .shamir⟩ ∧
    shamirSplit toyCurve toyPrims root 3 2 [fromUint 7] = .ok (pub, keys) ∧ keys.map KeyShare.id = [1, 2, 3] ∧
    (∀ k ∈ sub, k ∈ keys) ∧ sub.map KeyShare.id = [3, 1, 3] ∧
    ∃ k, (Dealer.mk 3 2 .shamir).compositeSigningKey toyCurve toyPrims sub = .ok k ∧ kL k.key = kL root.key % ellL := by
  obtain ⟨root, h1, h2, h3, p, h4⟩ := C30_fromSeed toyCurve toyPrims []
  obtain ⟨pub, keys, h5, _⟩ := (C40_shamir_rejects toyCurve toyPrims root 3 2 [fromUint 7] rfl).2 (clamped_not_dvd h3)
    (by intro c hc; rw [List.mem_singleton] at hc; subst hc; decide)
  have h6 := (C40_shamir_ids_partial toyCurve toyPrims root 3 2 [fromUint 7] rfl pub keys h5).1 (by decide)
  have h7 : keys.map KeyShare.id = [1, 2, 3] := h6
  obtain ⟨a, b, c, rfl⟩ := List.length_eq_three.mp (by rw [← List.length_map (f := KeyShare.id), h7]; rfl : keys.length = 3)
  · -- three shares
    simp only [List.map_cons, List.map_nil, List.cons.injEq, and_true] at h7
    have hid : [c, a, c].map KeyShare.id = [3, 1, 3] := by simp [h7]
    have hmem : ∀ k ∈ [c, a, c], k ∈ [a, b, c] := by
      intro k hk
      simp only [List.mem_cons, List.not_mem_nil, or_false] at hk ⊢
      rcases hk with rfl | rfl | rfl <;> simp
    obtain ⟨k, _, e1, e2, _⟩ := C35_reconstruct toyCurve toyPrims root 3 2 (by decide) [fromUint 7] rfl pub [a, b, c] h5 [c, a, c] hmem
      (by rw [hid]; decide)
    exact ⟨root, pub, [a, b, c], [c, a, c], h1, by rw [C40_dealer2]; rfl, h5, by simp [h7], hmem, hid, k, e1, e2⟩

/-- Fewer shares than the threshold: the hypothesis of `C35_too_few`. -/
example : (Dealer.mk 3 2 .shamir).compositeSigningKey toyCurve toyPrims [⟨1, ⟨[], []⟩⟩, ⟨1, ⟨[], []⟩⟩, ⟨0, ⟨[5], []⟩⟩] =
    .throw .invalidArgument := (C35_too_few toyCurve toyPrims 3 2 _ (by decide)).1

/-- A complete signing run of two of three Shamir share holders meets the hypotheses of
`C38_shamir`. -/
example : ∃ (root : Prv) (pub : Pub) (keys sub : List KeyShare) (cs : List Bytes) (outs : List (Stateful × Bytes)), fromSeed toyPrims [] = .ok root ∧
    shamirSplit toyCurve toyPrims root 3 2 [fromUint 7] = .ok (pub, keys) ∧ sub.map KeyShare.id = [3, 1] ∧
    computeLagrange (sub.map KeyShare.id) = .ok cs ∧
    List.Forall₂ (fun (x : (KeyShare × Bytes) × Bytes) o =>
      (statefulCoef [1, 2] pub x.1.1 x.1.2).commitmentShare toyCurve toyPrims x.2 = .ok o) ((sub.zip cs).zip [[5], [6]]) outs ∧
    ∃ R sig, aggregateCommitments toyCurve (outs.map Prod.snd).reverse = .ok R ∧
      aggregateSignatures (outs.map (fun o => o.1.signatureShare toyPrims R)).reverse = .ok sig ∧
      pub.verify toyCurve toyPrims [1, 2] sig = true := by
  obtain ⟨root, h1, h2, h3, p, h4⟩ := C30_fromSeed toyCurve toyPrims []
  obtain ⟨pub, keys, h5, _⟩ := (C40_shamir_rejects toyCurve toyPrims root 3 2 [fromUint 7] rfl).2 (clamped_not_dvd h3)
    (by intro c hc; rw [List.mem_singleton] at hc; subst hc; decide)
  have h6 := (C40_shamir_ids_partial toyCurve toyPrims root 3 2 [fromUint 7] rfl pub keys h5).1 (by decide)
  have h7 : keys.map KeyShare.id = [1, 2, 3] := h6
  obtain ⟨a, b, c, rfl⟩ := List.length_eq_three.mp (by rw [← List.length_map (f := KeyShare.id), h7]; rfl : keys.length = 3)
  · -- three shares
    simp only [List.map_cons, List.map_nil, List.cons.injEq, and_true] at h7
    have hid : [c, a].map KeyShare.id = [3, 1] := by simp [h7]
    obtain ⟨cs, hcs, _, hcl, _⟩ := (C39_computeLagrange ([c, a].map KeyShare.id) (by rw [hid]; decide)).2 (by rw [hid]; decide)
      (by rw [hid]; decide)
    obtain ⟨c1, c2, rfl⟩ := List.length_eq_two.mp (by simpa using hcl : cs.length = 2)
    · -- two coefficients
      obtain ⟨s1, m1, a1, _, _, _, _, _, n1⟩ := C38_commitmentShare toyCurve toyPrims [5] (statefulCoef [1, 2] pub c c1)
      obtain ⟨s2, m2, a2, _, _, _, _, _, n2⟩ := C38_commitmentShare toyCurve toyPrims [6] (statefulCoef [1, 2] pub a c2)
      have hout : List.Forall₂ (fun (x : (KeyShare × Bytes) × Bytes) o =>
          (statefulCoef [1, 2] pub x.1.1 x.1.2).commitmentShare toyCurve toyPrims x.2 = .ok o) (([c, a].zip [c1, c2]).zip [[5], [6]]) [(s1, m1), (s2, m2)] :=
        .cons a1 (.cons a2 .nil)
      have hsh : ∀ x, leNat (toyPrims.sha512 x) = 1 := fun x => by
        show leNat (1 :: List.replicate 63 0) = 1
        decide
      rw [hsh, Nat.mod_eq_of_lt (by decide +kernel)] at n1 n2
      obtain ⟨_, R, hR, hall⟩ := C38_shamir toyCurve toyPrims root 3 2 (by decide) [fromUint 7] rfl pub [a, b, c] h5 [c, a]
        (by intro k hk; simp only [List.mem_cons, List.not_mem_nil, or_false] at hk ⊢; rcases hk with rfl | rfl <;> simp)
        (by rw [hid]; decide) (Nat.le_refl 2) [c1, c2] hcs [1, 2] [[5], [6]] rfl [(s1, m1), (s2, m2)] hout
        (by simp only [List.map_cons, List.map_nil, List.sum_cons, List.sum_nil, n1, n2]; decide +kernel)
        ([(s1, m1), (s2, m2)].map Prod.snd).reverse (List.reverse_perm _)
      obtain ⟨sig, e1, _, _, e2, _⟩ := hall _ (List.reverse_perm _)
      exact ⟨root, pub, [a, b, c], [c, a], [c1, c2], _, h1, h5, hid, hcs, hout, R, sig, hR, e1, e2⟩

/-- A direct dealing into two shares succeeds for some root key (hypotheses of `C37_*` and
`C38_direct_partial`). -/
example : ∃ root pub p keys, directSplit toyCurve toyPrims (fun _ => []) root 2 = .ok (pub, keys) ∧ root.publicKey toyCurve = .ok p ∧
    keys.map KeyShare.id = [1, 2] := by
  have hroot : (⟨fromUint 5 ++ List.replicate 32 0, []⟩ : Prv).publicKey toyCurve = .ok ⟨toyCurve.enc (kL (fromUint 5 ++ List.replicate 32 0) • toyCurve.B), []⟩ :=
    publicKey_of (k := ⟨fromUint 5 ++ List.replicate 32 0, []⟩) (by show ¬ ellL ∣ kL (fromUint 5 ++ List.replicate 32 0); decide +kernel)
  rcases C37_direct_total toyCurve toyPrims (fun _ => []) ⟨fromUint 5 ++ List.replicate 32 0, []⟩ 2 (by decide) with ⟨⟨pub, keys⟩, h⟩ | ⟨_, gen, hg, hs⟩
  · exact ⟨_, pub, _, keys, h, hroot, C40_direct_ids toyCurve toyPrims _ _ 2 (by decide) pub keys h⟩
  · exfalso
    rcases hg with _ | ⟨hk, hg⟩
    cases hg
    obtain ⟨k, e, _, hcl, _⟩ := C30_generate toyCurve toyPrims []
    rw [e] at hk
    obtain rfl := Out.ok.inj hk
    have hk2 : generate toyPrims [] = .ok ⟨0 :: List.replicate 30 0 ++ [64] ++ List.replicate 32 0, List.replicate 32 0⟩ := by decide +kernel
    rw [hk2] at e
    simp only [List.map_cons, List.map_nil] at hs
    rw [← Out.ok.inj e] at hs
    clear hroot e hk2 hk hcl
    revert hs
    decide +kernel

end Cardano.Tss
