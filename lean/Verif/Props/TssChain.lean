import Verif.Props.TssDealer

/-! # C37: the chain code of a directly shared key

The composite key has a chain code of its own, made from the public keys of the shares.  It decides which child keys, and so which
addresses, the group has. -/

namespace Cardano.Tss

open Cardano Cardano.Ed Cardano.Bip32 Cardano.Spec.Bip32 Cardano.Spec.Tss

/-- The public keys belong to the shares, in the same order. -/
def PubsOf (C : Curve) (shares : List KeyShare) (pubs : List Pub) : Prop :=
  List.Forall₂ (fun k q => k.key.publicKey C = .ok q) shares pubs

theorem sharePubs_of (C : Curve) : ∀ {shares : List KeyShare} {pubs : List Pub}, PubsOf C shares pubs →
    sharePubs C shares = .ok (pubs.map Pub.key).flatten := by
  intro shares pubs h
  induction h with
  | nil => rfl
  | cons hk _ ih => simp [sharePubs, hk, ih]

theorem chainCodeOf_of (C : Curve) (P : Prims) {shares : List KeyShare} {pubs : List Pub} (h : PubsOf C shares pubs) :
    chainCodeOf C P shares = .ok (P.sha256 (pubs.map Pub.key).flatten) := by
  unfold chainCodeOf; rw [sharePubs_of C h]; rfl

theorem pubsOf_exists (C : Curve) (P : Prims) : ∀ {shares : List KeyShare} {cc : Bytes}, chainCodeOf C P shares = .ok cc →
    ∃ pubs, PubsOf C shares pubs ∧ cc = P.sha256 (pubs.map Pub.key).flatten := by
  intro shares cc h
  have key : ∀ (l : List KeyShare) (x : Bytes), sharePubs C l = .ok x → ∃ pubs, PubsOf C l pubs := by
    intro l
    induction l with
    | nil => intro _ _; exact ⟨[], .nil⟩
    | cons k l ih =>
      intro x hx
      rw [sharePubs] at hx
      obtain ⟨p, hp, hx⟩ := Out.bind_eq_ok.mp hx
      obtain ⟨y, hy, _⟩ := Out.bind_eq_ok.mp hx
      obtain ⟨ps, hps⟩ := ih y hy
      exact ⟨p :: ps, .cons hp hps⟩
  have h0 := h
  unfold chainCodeOf at h
  obtain ⟨x, hx, _⟩ := Out.bind_eq_ok.mp h
  obtain ⟨pubs, hp⟩ := key _ _ hx
  rw [chainCodeOf_of C P hp] at h0
  exact ⟨pubs, hp, (Out.ok.inj h0).symm⟩

theorem sumSharePubs_of (C : Curve) : ∀ {shares : List KeyShare} {pubs : List Pub} (_ : PubsOf C shares pubs) (acc : Bytes),
    sumSharePubs C shares acc = sumPoints C (pubs.map Pub.key) acc := by
  intro shares pubs h
  induction h with
  | nil => intro acc; rfl
  | cons hk _ ih =>
    intro acc
    simp only [sumSharePubs, hk, Out.ok_bind, List.map_cons, sumPoints]
    cases pointPlus C acc _ with
    | ok r => exact ih r
    | throw e => rfl
    | ub => rfl

/-- **C37** (chain code) The dealer's public key carries the SHA-256 of the shares' public keys, in the order of the shares. -/
theorem C37_dealt_chain_code (C : Curve) (P : Prims) (rand : Nat → Bytes) (root : Prv) (n : UInt32) (hn : 1 ≤ n.toNat)
    (pub : Pub) (keys : List KeyShare) (h : directSplit C P rand root n = .ok (pub, keys)) :
    ∃ pubs, PubsOf C keys pubs ∧ pub.cc = P.sha256 (pubs.map Pub.key).flatten := by
  rcases directSplit_spec C P rand root n hn with ⟨h', _⟩ | ⟨p', k', h', _, _, _, hcc, _⟩
  · rw [h] at h'; exact absurd h' (by simp)
  · rw [h] at h'
    obtain ⟨rfl, rfl⟩ := Prod.mk.inj (Out.ok.inj h')
    exact pubsOf_exists C P hcc

/-- **C37** (chain code) Whatever shares are combined, from the shares or from their public keys alone the composite key is the
same, and its chain code, like that of the composite signing key, is the SHA-256 of the public keys in the given order. -/
theorem C37_composite_chain_code (C : Curve) (P : Prims) (n t : UInt32) (shares : List KeyShare) (pubs : List Pub)
    (hp : PubsOf C shares pubs) :
    (Dealer.mk n t .direct).compositeKeyPubs C P pubs = (Dealer.mk n t .direct).compositeKey C P shares ∧
    (∀ q, (Dealer.mk n t .direct).compositeKeyPubs C P pubs = .ok q → q.cc = P.sha256 (pubs.map Pub.key).flatten) ∧
    (∀ k, (Dealer.mk n t .direct).compositeSigningKey C P shares = .ok k → k.cc = P.sha256 (pubs.map Pub.key).flatten) := by
  have hlen : shares.length = pubs.length := hp.length_eq
  unfold Dealer.compositeKeyPubs Dealer.compositeKey Dealer.compositeSigningKey
  simp only [hlen]
  by_cases ht : pubs.length < t.toNat
  · simp [ht]
  simp only [if_neg ht]
  cases hp with
  | nil => simp
  | cons hk hr =>
    rename_i k q ks qs
    have hcc := chainCodeOf_of C P (List.Forall₂.cons hk hr)
    simp only [hcc, hk, Out.ok_bind, sumSharePubs_of C hr, chainCodeOfPubs]
    refine ⟨trivial, ?_, ?_⟩
    · intro r h
      obtain ⟨x, _, h⟩ := Out.bind_eq_ok.mp h
      rw [← Out.ok.inj h]
    · intro r h
      rw [← Out.ok.inj h]

/-- **C37** (chain code) So the signers, combining all shares in the order they were dealt, get the dealer's chain code; and for at
least two shares exactly the dealer's public key. -/
theorem C37_combined_is_dealt (C : Curve) (P : Prims) (rand : Nat → Bytes) (root : Prv) (n : UInt32) (hn : 1 ≤ n.toNat)
    (pub p : Pub) (keys : List KeyShare) (h : directSplit C P rand root n = .ok (pub, keys)) (hp : root.publicKey C = .ok p) :
    ∃ k q, (Dealer.mk n n .direct).compositeSigningKey C P keys = .ok k ∧ (Dealer.mk n n .direct).compositeKey C P keys = .ok q ∧
      k.cc = pub.cc ∧ q.cc = pub.cc ∧ (2 ≤ n.toNat → q = pub) := by
  obtain ⟨pubs, hpubs, hcc⟩ := C37_dealt_chain_code C P rand root n hn pub keys h
  obtain ⟨k, q, h1, _, h2, h3⟩ := C37_direct_recombine C P rand root n hn pub p keys keys h hp (List.Perm.refl _)
  obtain ⟨c1, c2, c3⟩ := C37_composite_chain_code C P n n keys pubs hpubs
  have hq : q.cc = pub.cc := by rw [hcc]; exact c2 q (c1.trans h2)
  refine ⟨k, q, h1, h2, by rw [hcc]; exact c3 k h1, hq, fun h2n => ?_⟩
  have := C37_direct_public_key_partial C P rand root n h2n pub p keys h hp
  cases q; cases pub; simp_all

/-- The other order of two shares gives another chain code, unless the two strings collide under SHA-256: the chain code belongs
to the order. -/
theorem C37_order_matters (C : Curve) (P : Prims) (n t : UInt32) (a b : KeyShare) (pa pb : Pub) (ha : a.key.publicKey C = .ok pa)
    (hb : b.key.publicKey C = .ok pb) (q q' : Pub)
    (h : (Dealer.mk n t .direct).compositeKey C P [a, b] = .ok q) (h' : (Dealer.mk n t .direct).compositeKey C P [b, a] = .ok q')
    (hs : P.sha256 (pa.key ++ pb.key) ≠ P.sha256 (pb.key ++ pa.key)) : q.cc ≠ q'.cc := by
  obtain ⟨c1, c2, _⟩ := C37_composite_chain_code C P n t [a, b] [pa, pb] (.cons ha (.cons hb .nil))
  obtain ⟨d1, d2, _⟩ := C37_composite_chain_code C P n t [b, a] [pb, pa] (.cons hb (.cons ha .nil))
  rw [c2 q (c1.trans h), d2 q' (d1.trans h')]
  simpa using hs

/-- **C37**, **C35** (the whole key) Whatever shares are combined, the composite signing key has the sizes of an extended key: 64 bytes
and a 32-byte chain code.  Its second half, from which signing nonces are derived, is a hash of the scalar: with direct sharing the
SHA-256, with Shamir sharing the first half of the SHA-512, whose second half is then the chain code. -/
theorem C37_composite_signing_key (C : Curve) (P : Prims) (n t : UInt32) (a : Alg) (shares : List KeyShare) (k : Prv)
    (h : (Dealer.mk n t a).compositeSigningKey C P shares = .ok k) :
    k.key.length = 64 ∧ k.cc.length = 32 ∧
    (a = .direct → k.key.drop 32 = P.sha256 (ascii "cardano-tss-key-extension-v1" ++ k.key.take 32)) ∧
    (a = .shamir → k.key.drop 32 ++ k.cc = P.sha512 (ascii "cardano-tss-key-extension-v1" ++ k.key.take 32)) := by
  have hadd : ∀ a b : Bytes, (scalarAdd a b).length = 32 := fun a b => by unfold scalarAdd; exact le32_length _
  have hsum : ∀ (l : List KeyShare) (s : Bytes), s.length = 32 → (sumScalars l s).length = 32 := by
    intro l
    induction l with
    | nil => intro s hs; exact hs
    | cons k l ih => intro s _; exact ih _ (hadd _ _)
  have hw : ∀ (c : List Bytes) (l : List KeyShare) (s : Bytes), s.length = 32 → (weightedSum c l s).length = 32 := by
    intro c
    induction c with
    | nil => intro l s hs; unfold weightedSum; exact hs
    | cons a c ih =>
      intro l s hs
      cases l with
      | nil => exact hs
      | cons k l => exact ih l _ (hadd _ _)
  unfold Dealer.compositeSigningKey at h
  by_cases ht : shares.length < t.toNat
  · simp [ht] at h
  simp only [if_neg ht] at h
  cases a with
  | direct =>
    cases shares with
    | nil => cases h
    | cons k0 ks =>
      obtain ⟨cc, hcc, h⟩ := Out.bind_eq_ok.mp h
      obtain rfl := Out.ok.inj h
      have hl := hsum ks (keyScalar k0.key) (by unfold keyScalar reduce32 scalarReduce; exact le32_length _)
      obtain ⟨pubs, _, rfl⟩ := pubsOf_exists C P hcc
      refine ⟨by simp [hl, P.sha256_length], P.sha256_length _, fun _ => ?_, fun h => by cases h⟩
      rw [List.drop_left' hl, List.take_left' hl]; rfl
  | shamir =>
    unfold reconstruct at h
    simp only at h
    split at h
    · cases h
    obtain ⟨co, _, h⟩ := Out.bind_eq_ok.mp h
    obtain rfl := Out.ok.inj h
    have hl := hw co (filterShares shares []) zero (by simp [zero])
    unfold extKey prvOfX
    refine ⟨by simp [hl, P.sha512_length], by simp [hl, P.sha512_length], (fun h => by cases h), fun _ => ?_⟩
    generalize weightedSum co (filterShares shares []) zero = s at *
    simp only
    have e : ∀ y : Bytes, ((s ++ y).take 64).drop 32 ++ (s ++ y).drop 64 = y := by
      intro y
      rw [List.drop_take, List.drop_left' hl, show 64 - 32 = 32 by rfl, List.drop_append, hl]
      rw [List.drop_of_length_le (by omega), List.nil_append, show 64 - 32 = 32 by rfl, List.take_append_drop]
    rw [e, List.take_take, List.take_left' (by simpa using hl)]; rfl

/-- **C35** (public keys only) Fewer public keys than the threshold are refused, and public keys alone never give the composite key of
a Shamir dealing, however many there are: `std::invalid_argument` in both cases. -/
theorem C35_public_keys_only (C : Curve) (P : Prims) (d : Dealer) (pubs : List Pub)
    (h : pubs.length < d.t.toNat ∨ d.alg = .shamir) : d.compositeKeyPubs C P pubs = .throw .invalidArgument := by
  unfold Dealer.compositeKeyPubs
  by_cases hl : pubs.length < d.t.toNat
  · rw [if_pos hl]
  · rw [if_neg hl, (h.resolve_left hl)]

example : (Dealer.mk 3 2 .shamir).alg = .shamir ∧ (([⟨[], []⟩] : List Pub).length < (Dealer.mk 3 2 .direct).t.toNat) := by decide

/-- Concrete case: a key with scalar 5 is split into two shares, so the theorems above speak about a real dealing. -/
example : ∃ pub keys pubs, directSplit toyCurve toyPrims (fun _ => []) ⟨5 :: List.replicate 63 0, []⟩ 2 = .ok (pub, keys) ∧
    PubsOf toyCurve keys pubs ∧ pub.cc = toyPrims.sha256 (pubs.map Pub.key).flatten := by
  rcases C37_direct_total toyCurve toyPrims (fun _ => []) ⟨5 :: List.replicate 63 0, []⟩ 2 (by decide) with ⟨⟨pub, keys⟩, h⟩ | ⟨_, gen, hg, hs⟩
  · obtain ⟨pubs, h1, h2⟩ := C37_dealt_chain_code _ _ _ _ 2 (by decide) pub keys h
    exact ⟨pub, keys, pubs, h, h1, h2⟩
  · exfalso
    have e : (List.range ((2 : UInt32).toNat - 1)).map (fun _ => ([] : Bytes)) = [[]] := rfl
    rw [e] at hg
    cases hg with
    | cons hk hr =>
      rename_i k l
      cases hr
      have hk' : (match generate toyPrims [] with | .ok x => kL x.key % ellL | _ => 0) ≠ kL (5 :: List.replicate 63 0) % ellL := by
        decide +kernel
      rw [hk] at hk'
      exact hk' (by simpa using hs)

end Cardano.Tss
