import Verif.Props.TssSign

/-! # C35, C37, C40 at the level of the `Dealer` object -/

namespace Cardano.Tss

open Cardano Cardano.Ed Cardano.Bip32 Cardano.Spec.Bip32 Cardano.Spec.Tss Polynomial

/-- A dealer made by one of the three constructors. -/
def IsDealer (d : Dealer) : Prop :=
  (∃ n, dealer1 n = .ok d) ∨ (∃ n t, dealer2 n t = .ok d) ∨ ∃ n t a, dealer3 n t a = .ok d

theorem isDealer_iff (d : Dealer) : IsDealer d ↔ 1 ≤ d.t.toNat ∧ d.t.toNat ≤ d.n.toNat ∧ (d.alg = .direct → d.t = d.n) := by
  constructor
  · rintro (⟨n, h⟩ | ⟨n, t, h⟩ | ⟨n, t, a, h⟩)
    · rw [C40_dealer1] at h
      split at h
      · rename_i h'
        have := Out.ok.inj h; subst this
        exact ⟨h', Nat.le_refl _, fun _ => rfl⟩
      · cases h
    · rw [C40_dealer2] at h
      split at h
      · rename_i h'
        have := Out.ok.inj h; subst this
        refine ⟨h'.1, h'.2, fun ha => ?_⟩
        by_cases e : t = n
        · exact e
        · simp [e] at ha
      · cases h
    · rw [C40_dealer3] at h
      split at h
      · rename_i h'
        have := Out.ok.inj h; subst this
        exact h'
      · cases h
  · rintro ⟨h1, h2, h3⟩
    exact Or.inr (Or.inr ⟨d.n, d.t, d.alg, by rw [C40_dealer3, if_pos ⟨h1, h2, h3⟩]⟩)

/-- **C35** at the dealer: whatever a Shamir dealer deals, any list of its shares with at least `t`
different ids (any order, any repetition) gives back, with the same dealer, the root scalar and
the root public key, which is also the one the dealer announced. -/
theorem C35_dealer (C : Curve) (P : Prims) (d : Dealer) (hd : IsDealer d) (ha : d.alg = .shamir) (rand coef : Nat → Bytes)
    (root : Prv) (pub : Pub) (keys : List KeyShare) (h : d.splitRootKey C P rand coef root = .ok (pub, keys))
    (sub : List KeyShare) (hsub : ∀ k ∈ sub, k ∈ keys) (hn : d.t.toNat ≤ (sub.map KeyShare.id).dedup.length) :
    root.publicKey C = .ok pub ∧
    ∃ k q, d.compositeSigningKey C P sub = .ok k ∧ kL k.key = kL root.key % ellL ∧
      d.compositeKey C P sub = .ok q ∧ q.key = pub.key := by
  obtain ⟨n, t, alg⟩ := d
  simp only at ha hn
  subst ha
  have ht := ((isDealer_iff _).mp hd).1
  simp only [Dealer.splitRootKey] at h
  have hl : ((List.range (t.toNat - 1)).map coef).length = t.toNat - 1 := by simp
  refine ⟨?_, C35_reconstruct C P root n t ht _ hl pub keys h sub hsub hn⟩
  obtain ⟨h0, hc⟩ := shamirSplit_ok h
  obtain ⟨pub', keys', h1, hp, _⟩ := shamirSplit_spec C P root n t _ hl h0 hc
  rw [h] at h1
  obtain ⟨rfl, rfl⟩ := Prod.mk.inj (Out.ok.inj h1)
  exact hp

/-- **C37** at the dealer: the shares of a direct dealer are numbered 1 to n, and all of them
together, in any order, give back with the same dealer the root scalar and the root public key. -/
theorem C37_dealer (C : Curve) (P : Prims) (d : Dealer) (hd : IsDealer d) (ha : d.alg = .direct) (rand coef : Nat → Bytes)
    (root : Prv) (pub p : Pub) (keys order : List KeyShare) (h : d.splitRootKey C P rand coef root = .ok (pub, keys))
    (hp : root.publicKey C = .ok p) (ho : order.Perm keys) :
    keys.map KeyShare.id = List.range' 1 d.n.toNat ∧
    ∃ k q, d.compositeSigningKey C P order = .ok k ∧ kL k.key = kL root.key % ellL ∧
      d.compositeKey C P order = .ok q ∧ q.key = p.key := by
  obtain ⟨n, t, alg⟩ := d
  simp only at ha
  subst ha
  obtain ⟨h1, h2, h3⟩ := (isDealer_iff _).mp hd
  have h3 : t = n := h3 rfl
  subst h3
  simp only [Dealer.splitRootKey] at h
  exact ⟨C40_direct_ids C P rand root t h1 pub keys h, C37_direct_recombine C P rand root t h1 pub p keys order h hp ho⟩

/-- **C40** Shamir shares are well-formed extended keys: the scalar, followed by the SHA-512 of
the published tag and the scalar (32 bytes of nonce prefix, 32 bytes of chain code). -/
theorem C40_share_format (C : Curve) (P : Prims) (d : Dealer) (ha : d.alg = .shamir) (rand coef : Nat → Bytes)
    (root : Prv) (pub : Pub) (keys : List KeyShare) (h : d.splitRootKey C P rand coef root = .ok (pub, keys)) :
    ∀ k ∈ keys, k.key.xbytes = k.key.key.take 32 ++ P.sha512 (ascii "cardano-tss-key-extension-v1" ++ k.key.key.take 32) ∧
      k.key.key.length = 64 ∧ leNat (k.key.key.take 32) < ellL := by
  obtain ⟨n, t, alg⟩ := d
  simp only at ha
  subst ha
  simp only [Dealer.splitRootKey] at h
  have hl : ((List.range (t.toNat - 1)).map coef).length = t.toNat - 1 := by simp
  obtain ⟨h0, hc⟩ := shamirSplit_ok h
  obtain ⟨pub', keys', h1, hp, _, h4⟩ := shamirSplit_spec C P root n t _ hl h0 hc
  rw [h] at h1
  obtain ⟨rfl, rfl⟩ := Prod.mk.inj (Out.ok.inj h1)
  intro k hk
  obtain ⟨g1, _, g3⟩ := h4 k hk
  have hcan := canon_keyScalar k.key
  have ht : k.key.key.take 32 = keyScalar k.key := by
    conv_lhs => rw [g3]
    unfold extKey prvOfX
    simp only []
    rw [List.take_take, show min 32 64 = 32 from rfl, List.take_left' hcan.1]
  refine ⟨?_, g1.1, ?_⟩
  · rw [ht]
    conv_lhs => rw [g3]
    unfold extKey prvOfX Prv.xbytes
    rw [List.take_append_drop]; rfl
  · rw [ht]; exact hcan.2

theorem reconstruct_root (C : Curve) (P : Prims) (root : Prv) (n t : UInt32) (ht : 1 ≤ t.toNat) (coefs : List Bytes)
    (hl : coefs.length = t.toNat - 1) (pub : Pub) (keys : List KeyShare)
    (h : shamirSplit C P root n t coefs = .ok (pub, keys)) (sub : List KeyShare) (hsub : ∀ k ∈ sub, k ∈ keys)
    (hd : t.toNat ≤ (sub.map KeyShare.id).dedup.length) :
    ∃ y, reconstruct P sub t = .ok (extKey P y) ∧ Canon y ∧ leNat y = kL root.key % ellL := by
  obtain ⟨h0, hc⟩ := shamirSplit_ok h
  obtain ⟨pub', keys', h1, hpub, h2, h3⟩ := shamirSplit_spec C P root n t coefs hl h0 hc
  rw [h] at h1
  obtain ⟨rfl, rfl⟩ := Prod.mk.inj (Out.ok.inj h1)
  have hnd : (keys.map KeyShare.id).Nodup := by rw [h2]; exact shareIds_nodup n
  obtain ⟨y, e1, e2, e3⟩ := reconstruct_poly P (ofCoeffs ((kL root.key : F) :: coefs.map sv)) t (by
      refine lt_of_lt_of_le (ofCoeffs_degree _) ?_
      have : ((kL root.key : F) :: coefs.map sv).length ≤ t.toNat := by simp [hl]; omega
      exact_mod_cast this) sub
    (fun k hk => by
      have : k.id ∈ shareIds n := by rw [← h2]; exact List.mem_map_of_mem (hsub k hk)
      have := shareIds_mem this
      exact ⟨by omega, this.2.2⟩)
    (fun k hk => (h3 k (hsub k hk)).2.1)
    (fun a ha b hb he => by rw [List.inj_on_of_nodup_map hnd (hsub a ha) (hsub b hb) he]) hd
  rw [ofCoeffs_eval_zero] at e3
  exact ⟨y, e1, e2, by rw [← sv_val e2, e3, ZMod.val_natCast]⟩

/-- **C35** The reconstructed key does not depend on which shares were used, nonce prefix and
chain code included: it is the 32-byte little-endian root scalar modulo the group order followed
by the SHA-512 of the published tag and these 32 bytes. -/
theorem C35_same_key (C : Curve) (P : Prims) (d : Dealer) (hd : IsDealer d) (ha : d.alg = .shamir) (rand coef : Nat → Bytes)
    (root : Prv) (pub : Pub) (keys : List KeyShare) (h : d.splitRootKey C P rand coef root = .ok (pub, keys)) :
    ∃ y : Bytes, y.length = 32 ∧ leNat y = kL root.key % ellL ∧
      ∀ sub : List KeyShare, (∀ k ∈ sub, k ∈ keys) → d.t.toNat ≤ (sub.map KeyShare.id).dedup.length →
        ∃ k, d.compositeSigningKey C P sub = .ok k ∧
          k.xbytes = y ++ P.sha512 (ascii "cardano-tss-key-extension-v1" ++ y) ∧ k.key.length = 64 := by
  obtain ⟨n, t, alg⟩ := d
  simp only at ha
  subst ha
  have ht := ((isDealer_iff _).mp hd).1
  simp only [Dealer.splitRootKey] at h
  have hl : ((List.range (t.toNat - 1)).map coef).length = t.toNat - 1 := by simp
  have hcan := canon_keyScalar root
  have hv : leNat (keyScalar root) = kL root.key % ellL := by
    rw [← sv_val hcan, sv_keyScalar, ZMod.val_natCast]
  refine ⟨keyScalar root, hcan.1, hv, ?_⟩
  intro sub hsub hn
  obtain ⟨y, e1, e2, e3⟩ := reconstruct_root C P root n t ht _ hl pub keys h sub hsub hn
  have hy : y = keyScalar root := leNat_inj (by rw [e2.1, hcan.1]) (by rw [e3, hv])
  subst hy
  have hlen : ¬ sub.length < t.toNat := by
    have h4 : (sub.map KeyShare.id).dedup.length ≤ (sub.map KeyShare.id).length := (List.dedup_sublist _).length_le
    rw [List.length_map] at h4
    have hn : t.toNat ≤ (sub.map KeyShare.id).dedup.length := hn
    omega
  refine ⟨extKey P (keyScalar root), ?_, ?_, (extKey_scalar P hcan).2.2.1⟩
  · unfold Dealer.compositeSigningKey
    simp only [hlen, if_false, e1]
  · unfold extKey prvOfX Prv.xbytes
    rw [List.take_append_drop]; rfl

-- the hypotheses: every nonzero root key is dealt by a 2-of-3 dealer
example : IsDealer ⟨3, 2, .shamir⟩ := (isDealer_iff _).mpr ⟨by decide, by decide, by simp⟩
example (C : Curve) (P : Prims) (rand : Nat → Bytes) (root : Prv) (h0 : ¬ ellL ∣ kL root.key) :
    ∃ pub keys, (Dealer.mk 3 2 .shamir).splitRootKey C P rand (fun _ => fromUint 5) root = .ok (pub, keys) := by
  obtain ⟨pub, keys, h, _⟩ := (C40_shamir_rejects C P root 3 2 ((List.range 1).map fun _ => fromUint 5) (by simp)).2 h0
    (by decide)
  exact ⟨pub, keys, h⟩

end Cardano.Tss
