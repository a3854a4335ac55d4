import Verif.Spec.Wallet
import Verif.Props.Cip19
import Verif.Props.ColdKey

/-! # C90: addresses made from keys, and watch-only wallets -/

namespace Cardano.Address

open Cardano Cardano.Bip173 Cardano.Cip19 Cardano.Spec.LedgerRules

/-- Whom the network pays through an address with a CIP-19 header. -/
theorem header_paid (nid : NetworkID) (h rest : Bytes) (hl : h.length = 28) :
    paymentKey (header 0 nid :: (h ++ rest)) = some h ∧ paymentKey (header 6 nid :: h) = some h ∧
    rewardKey (header 14 nid :: h) = some h ∧
    (∀ t ∈ [0, 6, 14], networkOf (header t nid :: rest) = some (networkNumber nid)) := by
  have e1 : (h ++ rest).take 28 = h := by rw [← hl]; exact List.take_left' rfl
  have e2 : h.take 28 = h := List.take_of_length_le (by omega)
  cases nid <;>
    simp [paymentKey, rewardKey, networkOf, header, networkNumber, e1, e2]

/-- **C90** The addresses made from public keys are those of CIP-19 with the Blake2b-224 hashes of the 32 key
bytes (chain code left out): the network sees exactly these keys in them, and the text form is read back. -/
theorem C90_address_of_keys (H : Bytes → Bytes) (hH : ∀ x, (H x).length = 28) (nid : NetworkID) (pmt stk : Bip32.Pub) :
    (let a := Base.fromKeys H nid pmt stk
     a.toBytes = header 0 nid :: (H pmt.key ++ H stk.key) ∧ a.toBytesRaw = H pmt.key ++ H stk.key ∧
     paymentKey a.toBytes = some (H pmt.key) ∧ networkOf a.toBytes = some (networkNumber nid) ∧
     ∃ s, a.toBech32 = .ok s ∧ IsString s (hrp "addr" nid) a.toBytes ∧ Base.fromBech32 s = .ok a) ∧
    (let a := enterpriseFromKey H nid pmt
     a.toBytes = header 6 nid :: H pmt.key ∧ a.toBytesRaw = H pmt.key ∧
     paymentKey a.toBytes = some (H pmt.key) ∧ networkOf a.toBytes = some (networkNumber nid) ∧
     ∃ s, enterpriseToBech32 a = .ok s ∧ IsString s (hrp "addr" nid) a.toBytes ∧ enterpriseFromBech32 s = .ok a) ∧
    (let a := rewardsFromKey H nid stk
     a.toBytes = header 14 nid :: H stk.key ∧ a.toBytesRaw = H stk.key ∧
     rewardKey a.toBytes = some (H stk.key) ∧ networkOf a.toBytes = some (networkNumber nid) ∧
     ∃ s, rewardsToBech32 a = .ok s ∧ IsString s (hrp "stake" nid) a.toBytes ∧ rewardsFromBech32 s = .ok a) := by
  have hp := hH pmt.key
  have hs := hH stk.key
  obtain ⟨s1, e1, d1⟩ := C10_base_roundtrip nid _ _ hp hs
  obtain ⟨s2, e2, d2⟩ := C10_enterprise_roundtrip nid _ hp
  obtain ⟨s3, e3, d3⟩ := C10_rewards_roundtrip nid _ hs
  obtain ⟨b1, -, -, t1, -, -⟩ := C62_cip19_format nid (H pmt.key) (H stk.key) s1
  obtain ⟨-, b2, -, -, t2, -⟩ := C62_cip19_format nid (H pmt.key) (H stk.key) s2
  obtain ⟨-, -, b3, -, -, t3⟩ := C62_cip19_format nid (H pmt.key) (H stk.key) s3
  obtain ⟨p1, p2, -, -⟩ := header_paid nid (H pmt.key) (H stk.key) hp
  obtain ⟨-, -, p3, -⟩ := header_paid nid (H stk.key) [] hs
  have net := fun rest t ht => (header_paid nid (H pmt.key) rest hp).2.2.2 t ht
  refine ⟨⟨b1, rfl, ?_, ?_, s1, e1, ?_, d1⟩, ⟨b2, ?_, ?_, ?_, s2, e2, ?_, d2⟩, ⟨b3, ?_, ?_, ?_, s3, e3, ?_, d3⟩⟩
  · change paymentKey (Base.mk' nid (H pmt.key) (H stk.key)).toBytes = _; rw [b1]; exact p1
  · change networkOf (Base.mk' nid (H pmt.key) (H stk.key)).toBytes = _; rw [b1]; exact net _ 0 (by simp)
  · change IsString s1 _ (Base.mk' nid (H pmt.key) (H stk.key)).toBytes; rw [b1]; exact (t1 e1).1
  · exact List.take_of_length_le (by change (H pmt.key).length ≤ 28; omega)
  · change paymentKey (enterprise nid (H pmt.key)).toBytes = _; rw [b2]; exact p2
  · change networkOf (enterprise nid (H pmt.key)).toBytes = _; rw [b2]; exact net _ 6 (by simp)
  · change IsString s2 _ (enterprise nid (H pmt.key)).toBytes; rw [b2]; exact (t2 e2).1
  · exact List.take_of_length_le (by change (H stk.key).length ≤ 28; omega)
  · change rewardKey (rewards nid (H stk.key)).toBytes = _; rw [b3]; exact p3
  · change networkOf (rewards nid (H stk.key)).toBytes = _; rw [b3]; exact net _ 14 (by simp)
  · change IsString s3 _ (rewards nid (H stk.key)).toBytes; rw [b3]; exact (t3 e3).1

/-- Two different inputs with the same hash. -/
def Collision (H : Bytes → Bytes) (x y : Bytes) : Prop := x ≠ y ∧ H x = H y

theorem eq_or_collision {H : Bytes → Bytes} {x y : Bytes} (h : H x = H y) : x = y ∨ Collision H x y := by
  by_cases e : x = y
  · exact Or.inl e
  · exact Or.inr ⟨e, h⟩

/-- **C90** The text of an address names its network and its keys: two key pairs have the same text only if they
are the same keys (or someone found a Blake2b-224 collision). -/
theorem C90_text_names_keys (H : Bytes → Bytes) (hH : ∀ x, (H x).length = 28) (n n' : NetworkID)
    (p p' s s' : Bip32.Pub) (t : Bytes) :
    ((Base.fromKeys H n p s).toBech32 = .ok t → (Base.fromKeys H n' p' s').toBech32 = .ok t →
      n = n' ∧ (p.key = p'.key ∨ Collision H p.key p'.key) ∧ (s.key = s'.key ∨ Collision H s.key s'.key)) ∧
    (enterpriseToBech32 (enterpriseFromKey H n p) = .ok t → enterpriseToBech32 (enterpriseFromKey H n' p') = .ok t →
      n = n' ∧ (p.key = p'.key ∨ Collision H p.key p'.key)) ∧
    (rewardsToBech32 (rewardsFromKey H n s) = .ok t → rewardsToBech32 (rewardsFromKey H n' s') = .ok t →
      n = n' ∧ (s.key = s'.key ∨ Collision H s.key s'.key)) := by
  have single : ∀ (ty : UInt8), (ty = typeEnterprise ∨ ty = typeRewards) → ∀ x y,
      Single.mk' ty n x = Single.mk' ty n' y → n = n' ∧ x = y := by
    intro ty hty x y h
    simp only [Single.mk', Single.mk.injEq] at h
    refine ⟨?_, h.2⟩
    have h1 := h.1
    rcases hty with rfl | rfl <;> cases n <;> cases n' <;> first | rfl | (exact absurd h1 (by decide))
  refine ⟨fun h h' => ?_, fun h h' => ?_, fun h h' => ?_⟩
  · obtain ⟨u, e, d⟩ := C10_base_roundtrip n _ _ (hH p.key) (hH s.key)
    obtain ⟨u', e', d'⟩ := C10_base_roundtrip n' _ _ (hH p'.key) (hH s'.key)
    obtain rfl : t = u := Out.ok.inj (h.symm.trans e)
    obtain rfl : t = u' := Out.ok.inj (h'.symm.trans e')
    obtain ⟨g1, g2, g3⟩ := C10_objects_distinct _ _ _ _ _ _ (Out.ok.inj (d.symm.trans d'))
    exact ⟨g1, eq_or_collision g2, eq_or_collision g3⟩
  · obtain ⟨u, e, d⟩ := C10_enterprise_roundtrip n _ (hH p.key)
    obtain ⟨u', e', d'⟩ := C10_enterprise_roundtrip n' _ (hH p'.key)
    obtain rfl : t = u := Out.ok.inj (h.symm.trans e)
    obtain rfl : t = u' := Out.ok.inj (h'.symm.trans e')
    obtain ⟨g1, g2⟩ := single _ (Or.inl rfl) _ _ (Out.ok.inj (d.symm.trans d'))
    exact ⟨g1, eq_or_collision g2⟩
  · obtain ⟨u, e, d⟩ := C10_rewards_roundtrip n _ (hH s.key)
    obtain ⟨u', e', d'⟩ := C10_rewards_roundtrip n' _ (hH s'.key)
    obtain rfl : t = u := Out.ok.inj (h.symm.trans e)
    obtain rfl : t = u' := Out.ok.inj (h'.symm.trans e')
    obtain ⟨g1, g2⟩ := single _ (Or.inr rfl) _ _ (Out.ok.inj (d.symm.trans d'))
    exact ⟨g1, eq_or_collision g2⟩

end Cardano.Address

namespace Cardano.Bip32

open Cardano Cardano.Ed Cardano.Address Cardano.Spec.Bip32 Cardano.Spec.LedgerRules Cardano.Spec.Wallet

/-- Derivation from a public key along a path: what a watch-only wallet does. -/
def derivePubPath (C : Curve) (P : Prims) (mode : Mode) : Pub → List UInt32 → Out Pub
  | k, [] => .ok k
  | k, i :: is => do
    let c ← k.deriveChild C P i mode
    derivePubPath C P mode c is

/-- On the path `soft` from the account key `a` there is a step at which the 28 bytes of the HMAC that are added to the key
(BIP32-Ed25519: `Z[0..28)` of `HMAC(cc, 0x02‖A‖i)`, index in 4 little-endian bytes) are all zero. -/
def ZeroStep (C : Curve) (P : Prims) (a : Prv) (soft : List UInt32) : Prop :=
  ∃ pre i post k A ib, soft = pre ++ i :: post ∧ derivePath C P .v2 a pre = .ok k ∧ k.publicKey C = .ok A ∧
    ib.length = 4 ∧ leNat ib = i.toNat ∧ leNat ((P.hmac k.cc ([0x02] ++ A.key ++ ib)).take 28) = 0

/-- Public derivation fails exactly for a zero hash. -/
theorem derivePub_step (C : Curve) (P : Prims) (k : Prv) (hk : k.WF) (hd : ¬ ellL ∣ kL k.key) (i : UInt32)
    (hi : i.toNat < 2 ^ 31) (p : Pub) (hp : k.publicKey C = .ok p) :
    p.deriveChild C P i .v2 = .throw .runtimeError ∧ leNat ((P.hmac k.cc (macInput 0x02 p.key i .v2)).take 28) = 0 ∨
      leNat ((P.hmac k.cc (macInput 0x02 p.key i .v2)).take 28) ≠ 0 ∧ ∃ q, p.deriveChild C P i .v2 = .ok q := by
  obtain ⟨p', c, h1, -, h3⟩ := (C29_failures C P k hk i .v2).2 hd
  obtain rfl : p = p' := Out.ok.inj (hp.symm.trans h1)
  obtain ⟨h4, h5⟩ := h3 hi
  have hlt := kL_zl8_lt P k.cc (macInput 0x02 p.key i .v2)
  have he : kL (zl8 .v2 (P.hmac k.cc (macInput 0x02 p.key i .v2))) = 8 * leNat ((P.hmac k.cc (macInput 0x02 p.key i .v2)).take 28) :=
    zl8_v2 _ (P.hmac_length _ _)
  by_cases hz : ellL ∣ kL (zl8 .v2 (P.hmac k.cc (macInput 0x02 p.key i .v2)))
  · refine Or.inl ⟨h4 hz, ?_⟩
    have := Nat.eq_zero_of_dvd_of_lt hz (Nat.lt_trans hlt (by decide +kernel))
    omega
  · refine Or.inr ⟨fun h0 => hz ?_, h5 hz⟩
    rw [he, h0]
    exact Nat.dvd_zero _

theorem zeroStep_cons (C : Curve) (P : Prims) (k c : Prv) (i : UInt32) (is : List UInt32) (p : Pub) (hp : k.publicKey C = .ok p)
    (hc : k.deriveChild C P i .v2 = .ok c) :
    ZeroStep C P k (i :: is) ↔ leNat ((P.hmac k.cc (macInput 0x02 p.key i .v2)).take 28) = 0 ∨ ZeroStep C P c is := by
  constructor
  · rintro ⟨pre, j, post, k', A, ib, hs, hk, hA, hl, hv, hz⟩
    cases pre with
    | nil =>
      obtain ⟨rfl, rfl⟩ := List.cons.inj hs
      obtain rfl : k = k' := Out.ok.inj hk
      obtain rfl : p = A := Out.ok.inj (hp.symm.trans hA)
      have hib : ib = serializeIndex i .v2 := leNat_inj (by rw [hl, serializeIndex_length]) (by rw [hv, serializeIndex_v2])
      subst hib
      exact Or.inl hz
    | cons x pre =>
      obtain ⟨rfl, hs2⟩ := List.cons.inj hs
      rw [derivePath, hc] at hk
      exact Or.inr ⟨pre, j, post, k', A, ib, hs2, hk, hA, hl, hv, hz⟩
  · rintro (hz | ⟨pre, j, post, k', A, ib, hs, hk, hA, hl, hv, hz⟩)
    · exact ⟨[], i, is, k, p, serializeIndex i .v2, rfl, rfl, hp, serializeIndex_length _ _, serializeIndex_v2 _, hz⟩
    · exact ⟨i :: pre, j, post, k', A, ib, by rw [hs]; rfl, by rw [derivePath, hc]; exact hk, hA, hl, hv, hz⟩

theorem watch_path (C : Curve) (P : Prims) : ∀ (soft : List UInt32) (k : Prv) (n : Nat) (p : Pub), k.WF →
    IcarusRange n (kL k.key) → n + soft.length < 2 ^ 26 → (∀ i ∈ soft, i.toNat < 2 ^ 31) → k.publicKey C = .ok p →
    ∃ c q, derivePath C P .v2 k soft = .ok c ∧ c.publicKey C = .ok q ∧
      (¬ ZeroStep C P k soft → derivePubPath C P .v2 p soft = .ok q) ∧
      (ZeroStep C P k soft → derivePubPath C P .v2 p soft = .throw .runtimeError) := by
  intro soft
  induction soft with
  | nil =>
    intro k n p hw hr hn hs hp
    refine ⟨k, p, rfl, hp, fun _ => rfl, ?_⟩
    rintro ⟨pre, i, post, -, -, -, h, -⟩
    cases pre <;> cases h
  | cons i is ih =>
    intro k n p hw hr hn hs hp
    have hd := icarusRange_not_dvd (by simp at hn; omega) hr
    obtain ⟨c, h1, h2, -, h4, h5⟩ := C74_path C P [i] k n hw hr (by simp at hn ⊢; omega)
    have hc : k.deriveChild C P i .v2 = .ok c := by
      cases hx : k.deriveChild C P i .v2 with
      | ok x => rw [derivePath, hx] at h1; exact h1
      | throw e => rw [derivePath, hx] at h1; cases h1
      | ub => rw [derivePath, hx] at h1; cases h1
    obtain ⟨d, q, g1, g2, g3⟩ := ih c (n + 1) _ h2 h4 (by simp at hn ⊢; omega) (fun j hj => hs j (by simp [hj])) h5
    refine ⟨d, q, by rw [derivePath, hc]; exact g1, g2, ?_⟩
    rw [zeroStep_cons C P k c i is p hp hc]
    rcases derivePub_step C P k hw hd i (hs i (by simp)) p hp with ⟨e, hm⟩ | ⟨hm, x, e⟩
    · exact ⟨fun h => absurd (Or.inl hm) h, fun _ => by rw [derivePubPath, e]; rfl⟩
    · have hbound : kL k.key ≤ 2 ^ 256 - 2 ^ 227 := by
        have h1 : n * 2 ^ 227 ≤ (2 ^ 26 - 1) * 2 ^ 227 := Nat.mul_le_mul_right _ (by simp at hn; omega)
        have h2 : 2 ^ 254 + 2 ^ 253 + (2 ^ 26 - 1) * 2 ^ 227 ≤ (2 : Nat) ^ 256 - 2 ^ 227 := by decide +kernel
        exact Nat.le_trans hr.2.2 (Nat.le_trans (Nat.add_le_add_left h1 _) h2)
      obtain rfl := C29_agree_bounded C P k hw i (hs i (by simp)) .v2 p hp hbound c hc x _ e h5
      rw [derivePubPath, e]
      exact ⟨fun h => g3.1 fun hz => h (Or.inr hz), fun h => g3.2 (h.resolve_left hm)⟩

/-- **C90** A watch-only wallet sees the wallet's own keys: from every root of `fromMnemonic` or `generate`, along
every account path and every further path of non-hardened steps, the public key derived from the account's
*public* key is the public key of the privately derived key, unless one of the HMACs on this very path starts with 28 zero
bytes; then, and only then, the outcome is an exception (the private derivation goes on). -/
theorem C90_watch_only (C : Curve) (P : Prims) (root : Prv) (hw : root.WF) (hr : IcarusRange 0 (kL root.key))
    (account soft : List UInt32) (hlen : account.length + soft.length < 2 ^ 26) (hsoft : ∀ i ∈ soft, i.toNat < 2 ^ 31) :
    ∃ a p c q, derivePath C P .v2 root account = .ok a ∧ a.publicKey C = .ok p ∧
      derivePath C P .v2 a soft = .ok c ∧ c.publicKey C = .ok q ∧
      (¬ ZeroStep C P a soft → derivePubPath C P .v2 p soft = .ok q) ∧
      (ZeroStep C P a soft → derivePubPath C P .v2 p soft = .throw .runtimeError) := by
  obtain ⟨a, h1, h2, -, h4, h5⟩ := C74_path C P account root 0 hw hr (by omega)
  obtain ⟨c, q, g1, g2, g3⟩ := watch_path C P soft a _ _ h2 h4 (by omega) hsoft h5
  exact ⟨a, _, c, q, h1, h5, g1, g2, g3⟩

/-- **C90** … and what is paid to a watch-only address can be spent: the wallet that derives the private key
holds the key the network asks for (first part), and the same for the reward account (second part). -/
theorem C90_watch_only_spendable (E : TxBuilder.Env) (N : Crypto) (hH : ∀ x, (N.keyHash x).length = 28) (nid : NetworkID)
    (root : Prv) (hw : root.WF) (hr : IcarusRange 0 (kL root.key)) (account soft : List UInt32)
    (hlen : account.length + soft.length < 2 ^ 26) (hsoft : ∀ i ∈ soft, i.toNat < 2 ^ 31)
    (a : Prv) (p q stk : Pub) (ha : derivePath E.C E.P .v2 root account = .ok a) (hp : a.publicKey E.C = .ok p)
    (hq : derivePubPath E.C E.P .v2 p soft = .ok q) :
    ∃ c, derivePath E.C E.P .v2 a soft = .ok c ∧
      (∃ h, paymentKey (Base.fromKeys N.keyHash nid q stk).toBytes = some h ∧ Holds E N [.bip c] h) ∧
      ∃ h, rewardKey (rewardsFromKey N.keyHash nid q).toBytes = some h ∧ Holds E N [.bip c] h := by
  obtain ⟨a', p', c, q', h1, h2, h3, h4, h5⟩ := C90_watch_only E.C E.P root hw hr account soft hlen hsoft
  obtain rfl : a = a' := Out.ok.inj (ha.symm.trans h1)
  obtain rfl : p = p' := Out.ok.inj (hp.symm.trans h2)
  have hqq : q = q' := by
    by_cases hz : ZeroStep E.C E.P a soft
    · have := h5.2 hz
      rw [hq] at this; cases this
    · exact Out.ok.inj (hq.symm.trans (h5.1 hz))
  subst hqq
  obtain ⟨⟨-, -, g1, -⟩, -, -⟩ := C90_address_of_keys N.keyHash hH nid q stk
  obtain ⟨-, -, ⟨-, -, g2, -⟩⟩ := C90_address_of_keys N.keyHash hH nid q q
  have hold : Holds E N [.bip c] (N.keyHash q.key) :=
    ⟨.bip c, List.mem_singleton_self _, q.key, by simp [TxBuilder.SKey.pub, h4], rfl⟩
  exact ⟨c, h3, ⟨_, g1, hold⟩, ⟨_, g2, hold⟩⟩

/-- The hypotheses are met: the CIP-1852 path m/1852'/1815'/0' and then 0/7, from the smallest root. -/
example : ∃ a p q, derivePath toyCurve toyPrims .v2 ⟨List.replicate 31 0 ++ 64 :: List.replicate 32 5, List.replicate 32 7⟩
      [2147485500, 2147485463, 2147483648] = .ok a ∧ a.publicKey toyCurve = .ok p ∧
      derivePubPath toyCurve toyPrims .v2 p [0, 7] = .ok q := by
  obtain ⟨a, p, c, q, h1, h2, -, -, h5⟩ := C90_watch_only toyCurve toyPrims
    ⟨List.replicate 31 0 ++ 64 :: List.replicate 32 5, List.replicate 32 7⟩ ⟨by decide, by decide⟩
    (by unfold IcarusRange; decide +kernel) [2147485500, 2147485463, 2147483648] [0, 7] (by decide) (by decide)
  refine ⟨a, p, q, h1, h2, ?_⟩
  refine h5.1 ?_
  rintro ⟨-, -, -, k, A, ib, -, -, -, -, -, h⟩
  exact absurd h (by
    have : (toyPrims.hmac k.cc ([0x02] ++ A.key ++ ib)).take 28 = 1 :: List.replicate 27 0 := rfl
    rw [this]; decide +kernel)

end Cardano.Bip32
