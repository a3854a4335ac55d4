import Verif.Model.Address
import Verif.Props.Bech32

/-! # C10–C13: Shelley addresses and chain pointers -/

namespace Cardano.Address

/-! ### helper facts (finite tables) -/

theorem tag_facts : ∀ nid : NetworkID,
    getAddressType (buildHeaderByte typeBase (networkTag nid)) = typeBase ∧
    getAddressType (buildHeaderByte typeEnterprise (networkTag nid)) = typeEnterprise ∧
    getAddressType (buildHeaderByte typeRewards (networkTag nid)) = typeRewards := by
  intro nid; cases nid <;> decide

theorem encode_decode (hrp : String) (data : Bytes) (h1 : ascii hrp ≠ [])
    (h2 : ∀ c ∈ ascii hrp, ¬ Bech32.specUpper c) :
    ∃ s, Bech32.encode (ascii hrp) data = .ok s ∧ Bech32.decode s = .ok (ascii hrp, data) :=
  (Bech32.C03_bech32_roundtrip (ascii hrp) data).1 h1 h2

/-- **C10 (base).** Writing a base address as text and reading the text back gives
the same network and both key hashes. -/
theorem C10_base_roundtrip (nid : NetworkID) (pmt stk : Bytes) (hp : pmt.length = 28) (hs : stk.length = 28) :
    ∃ s, (Base.mk' nid pmt stk).toBech32 = .ok s ∧ Base.fromBech32 s = .ok (Base.mk' nid pmt stk) := by
  have key : ∀ hrp : String, ascii hrp ≠ [] → (∀ c ∈ ascii hrp, ¬ Bech32.specUpper c) →
      ∃ s, Bech32.encode (ascii hrp) (Base.mk' nid pmt stk).toBytes = .ok s ∧
        Base.fromBech32 s = .ok (Base.mk' nid pmt stk) := by
    intro hrp h1 h2
    obtain ⟨s, e, d⟩ := encode_decode hrp (Base.mk' nid pmt stk).toBytes h1 h2
    refine ⟨s, e, ?_⟩
    unfold Base.fromBech32
    rw [d]
    simp only [Out.ok_bind, Base.toBytes, Base.mk']
    rw [if_neg (by simp [hp, hs, keyHashLength]), if_neg (by simp [(tag_facts nid).1])]
    have e1 : (pmt ++ stk).take keyHashLength = pmt := List.take_left' hp
    have e2 : (pmt ++ stk).drop keyHashLength = stk := List.drop_left' hp
    rw [e1, e2]
  unfold Base.toBech32
  split
  · exact key _ (by decide) (by decide +kernel)
  · exact key _ (by decide) (by decide +kernel)

theorem single_roundtrip (ty : UInt8) (main test : String) (nid : NetworkID) (k : Bytes) (hk : k.length = 28)
    (hty : getAddressType (buildHeaderByte ty (networkTag nid)) = ty)
    (hm : ascii main ≠ [] ∧ ∀ c ∈ ascii main, ¬ Bech32.specUpper c)
    (ht : ascii test ≠ [] ∧ ∀ c ∈ ascii test, ¬ Bech32.specUpper c) :
    ∃ s, (Single.mk' ty nid k).toBech32 main test = .ok s ∧ Single.fromBech32 ty s = .ok (Single.mk' ty nid k) := by
  have key : ∀ hrp : String, ascii hrp ≠ [] → (∀ c ∈ ascii hrp, ¬ Bech32.specUpper c) →
      ∃ s, Bech32.encode (ascii hrp) (Single.mk' ty nid k).toBytes = .ok s ∧
        Single.fromBech32 ty s = .ok (Single.mk' ty nid k) := by
    intro hrp h1 h2
    obtain ⟨s, e, d⟩ := encode_decode hrp (Single.mk' ty nid k).toBytes h1 h2
    refine ⟨s, e, ?_⟩
    unfold Single.fromBech32
    rw [d]
    simp only [Out.ok_bind, Single.toBytes, Single.mk']
    rw [if_neg (by simp [hk, keyHashLength]), if_neg (by simp [hty])]
    rw [List.take_of_length_le (by simp [hk, keyHashLength])]
  unfold Single.toBech32
  split
  · exact key _ hm.1 hm.2
  · exact key _ ht.1 ht.2

/-- **C10 (enterprise).** -/
theorem C10_enterprise_roundtrip (nid : NetworkID) (k : Bytes) (hk : k.length = 28) :
    ∃ s, enterpriseToBech32 (enterprise nid k) = .ok s ∧ enterpriseFromBech32 s = .ok (enterprise nid k) :=
  single_roundtrip typeEnterprise "addr" "addr_test" nid k hk (tag_facts nid).2.1
    (by decide +kernel) (by decide +kernel)

/-- **C10 (rewards).** -/
theorem C10_rewards_roundtrip (nid : NetworkID) (k : Bytes) (hk : k.length = 28) :
    ∃ s, rewardsToBech32 (rewards nid k) = .ok s ∧ rewardsFromBech32 s = .ok (rewards nid k) :=
  single_roundtrip typeRewards "stake" "stake_test" nid k hk (tag_facts nid).2.2
    (by decide +kernel) (by decide +kernel)

example : (List.replicate 28 (7 : UInt8)).length = 28 := by decide

/-- Network and hashes are determined by the address object: distinct (network,
hash) pairs give distinct objects, hence by C10 distinct texts. -/
theorem C10_objects_distinct (n n' : NetworkID) (p p' s s' : Bytes) (h : Base.mk' n p s = Base.mk' n' p' s') :
    n = n' ∧ p = p' ∧ s = s' := by
  simp only [Base.mk', Base.mk.injEq] at h
  refine ⟨?_, h.2.1, h.2.2⟩
  have h1 := h.1
  cases n <;> cases n' <;> first | rfl | (exact absurd h1 (by decide))

/-- Specification of acceptance: the text is valid Bech32, its payload has the
class's length and the upper nibble of its first byte is the class's type. -/
def specAccepts (len : Nat) (ty : Nat) (s : Bytes) : Prop :=
  ∃ hrp h rest, Bech32.decode s = .ok (hrp, h :: rest) ∧ rest.length = len ∧ h.toNat / 16 = ty

theorem type_nibble : ∀ h : UInt8, (getAddressType h = typeBase ↔ h.toNat / 16 = 0) ∧
    (getAddressType h = typeEnterprise ↔ h.toNat / 16 = 6) ∧ (getAddressType h = typeRewards ↔ h.toNat / 16 = 14) :=
  forall_byte (by decide +kernel)

theorem base_accepts (s : Bytes) : (∃ a, Base.fromBech32 s = .ok a) ↔ specAccepts 56 0 s := by
  unfold Base.fromBech32 specAccepts
  cases hd : Bech32.decode s with
  | throw e => simp
  | ub => simp
  | ok r =>
    obtain ⟨hrp, data⟩ := r
    simp only [Out.ok_bind]
    cases data with
    | nil => simp [keyHashLength]
    | cons h rest =>
      by_cases hl : rest.length = 56
      · by_cases ht : getAddressType h = typeBase
        · simp only [hl, keyHashLength, ht, List.length_cons, ne_eq, not_true_eq_false, if_false, Out.ok.injEq, exists_eq', true_iff]
          exact ⟨hrp, h, rest, rfl, hl, (type_nibble h).1.1 ht⟩
        · have : ¬ h.toNat / 16 = 0 := fun hh => ht ((type_nibble h).1.2 hh)
          simp [hl, keyHashLength, ht]; omega
      · simp [hl, keyHashLength]

theorem single_accepts (ty : UInt8) (t : Nat) (hty : ∀ h : UInt8, getAddressType h = ty ↔ h.toNat / 16 = t)
    (s : Bytes) : (∃ a, Single.fromBech32 ty s = .ok a) ↔ specAccepts 28 t s := by
  unfold Single.fromBech32 specAccepts
  cases hd : Bech32.decode s with
  | throw e => simp
  | ub => simp
  | ok r =>
    obtain ⟨hrp, data⟩ := r
    simp only [Out.ok_bind]
    cases data with
    | nil => simp [keyHashLength]
    | cons h rest =>
      by_cases hl : rest.length = 28
      · by_cases ht : getAddressType h = ty
        · simp only [hl, keyHashLength, ht, List.length_cons, ne_eq, not_true_eq_false, if_false, Out.ok.injEq, exists_eq', true_iff]
          exact ⟨hrp, h, rest, rfl, hl, (hty h).1 ht⟩
        · have : ¬ h.toNat / 16 = t := fun hh => ht ((hty h).2 hh)
          simp [hl, keyHashLength, ht, this]
      · simp [hl, keyHashLength]

/-- **C11.** Each class accepts exactly the texts whose payload has its length and
its type nibble; a text accepted by one class is refused with an exception by the
other two. -/
theorem C11_classes_exclusive (s : Bytes) :
    ((∃ a, Base.fromBech32 s = .ok a) ↔ specAccepts 56 0 s) ∧
    ((∃ a, enterpriseFromBech32 s = .ok a) ↔ specAccepts 28 6 s) ∧
    ((∃ a, rewardsFromBech32 s = .ok a) ↔ specAccepts 28 14 s) ∧
    ((Base.fromBech32 s).isOk → (enterpriseFromBech32 s).isThrow ∧ (rewardsFromBech32 s).isThrow) ∧
    ((enterpriseFromBech32 s).isOk → (Base.fromBech32 s).isThrow ∧ (rewardsFromBech32 s).isThrow) ∧
    ((rewardsFromBech32 s).isOk → (Base.fromBech32 s).isThrow ∧ (enterpriseFromBech32 s).isThrow) := by
  refine ⟨base_accepts s, single_accepts typeEnterprise 6 (fun h => (type_nibble h).2.1) s,
    single_accepts typeRewards 14 (fun h => (type_nibble h).2.2) s, ?_⟩
  unfold enterpriseFromBech32 rewardsFromBech32 Base.fromBech32 Single.fromBech32
  cases hd : Bech32.decode s with
  | throw e => simp [Out.isOk]
  | ub => simp [Out.isOk]
  | ok r =>
    obtain ⟨hrp, data⟩ := r
    simp only [Out.ok_bind]
    cases data with
    | nil => simp [keyHashLength, Out.isOk]
    | cons h rest =>
      have hb := (type_nibble h).1
      have he := (type_nibble h).2.1
      have hr := (type_nibble h).2.2
      by_cases hl : rest.length = 56
      · simp [hl, keyHashLength, Out.isOk, Out.isThrow]
      · by_cases hl2 : rest.length = 28
        · by_cases ht : getAddressType h = typeEnterprise
          · simp [hl2, keyHashLength, Out.isOk, Out.isThrow, ht, typeEnterprise, typeRewards]
          · by_cases ht2 : getAddressType h = typeRewards
            · simp [hl2, keyHashLength, Out.isOk, Out.isThrow, ht2, typeEnterprise, typeRewards]
            · simp [hl2, keyHashLength, Out.isOk, Out.isThrow, ht, ht2]
        · simp [hl, hl2, keyHashLength, Out.isOk, Out.isThrow]

/-- `toBytes` of a decoded base address is the decoded payload. -/
theorem base_decoded_bytes {s : Bytes} {a : Base} (h : Base.fromBech32 s = .ok a) :
    ∃ hrp, Bech32.decode s = .ok (hrp, a.toBytes) := by
  unfold Base.fromBech32 at h
  cases hd : Bech32.decode s with
  | throw e => simp [hd] at h
  | ub => simp [hd] at h
  | ok r =>
    obtain ⟨hrp, data⟩ := r
    simp only [hd, Out.ok_bind] at h
    refine ⟨hrp, ?_⟩
    cases data with
    | nil => simp [keyHashLength] at h
    | cons b rest =>
      split at h
      · cases h
      · simp only at h
        split at h
        · cases h
        · injection h with h
          subst h
          simp [Base.toBytes, List.take_append_drop]

theorem single_decoded_bytes {ty : UInt8} {s : Bytes} {a : Single} (h : Single.fromBech32 ty s = .ok a) :
    ∃ hrp, Bech32.decode s = .ok (hrp, a.toBytes) := by
  unfold Single.fromBech32 at h
  cases hd : Bech32.decode s with
  | throw e => simp [hd] at h
  | ub => simp [hd] at h
  | ok r =>
    obtain ⟨hrp, data⟩ := r
    simp only [hd, Out.ok_bind] at h
    refine ⟨hrp, ?_⟩
    cases data with
    | nil => simp [keyHashLength] at h
    | cons b rest =>
      split at h
      · cases h
      · rename_i hl
        simp only at h
        split at h
        · cases h
        · injection h with h
          subst h
          simp [keyHashLength] at hl
          simp [Single.toBytes, keyHashLength, List.take_of_length_le, hl]

/-- **C12 is false of the code**: neither the prefix nor the network nibble is
checked. A test-network payload under the main-network prefix `addr` is accepted
and re-encodes to a different text. -/
theorem C12_prefix_not_checked :
    ∃ s s' a, Base.fromBech32 s = .ok a ∧ a.toBech32 = .ok s' ∧ s' ≠ s.map toLower ∧
      s.take 5 = ascii "addr1" ∧ s'.take 10 = ascii "addr_test1" := by
  have hr : ∀ data : Bytes, Bech32.encode (ascii "addr") data ≠ .throw .invalidArgument := by
    intro data
    obtain ⟨s, e, _⟩ := encode_decode "addr" data (by decide) (by decide +kernel)
    rw [e]; simp
  let a : Base := Base.mk' .testnet (List.replicate 28 1) (List.replicate 28 2)
  obtain ⟨s, e, d⟩ := encode_decode "addr" a.toBytes (by decide) (by decide +kernel)
  obtain ⟨s', e', d'⟩ := encode_decode "addr_test" a.toBytes (by decide) (by decide +kernel)
  have hx : Bech32.encode (ascii "addr") a.toBytes = .ok s := e
  have hpre : s.take 5 = ascii "addr1" ∧ s'.take 10 = ascii "addr_test1" := by
    have h1 : (Bech32.encode (ascii "addr") a.toBytes).toOption.map (fun x => x.take 5) = some (ascii "addr1") := by
      decide +kernel
    have h2 : (Bech32.encode (ascii "addr_test") a.toBytes).toOption.map (fun x => x.take 10) = some (ascii "addr_test1") := by
      decide +kernel
    rw [e] at h1; rw [e'] at h2
    exact ⟨by simpa [Out.toOption] using h1, by simpa [Out.toOption] using h2⟩
  refine ⟨s, s', a, ?_, ?_, ?_, hpre.1, hpre.2⟩
  · unfold Base.fromBech32
    rw [d]
    decide +kernel
  · unfold Base.toBech32
    rw [if_neg (by decide)]
    exact e'
  · intro h
    have h1 := congrArg (List.take 5) h
    rw [← List.map_take, hpre.1] at h1
    have h2 := congrArg (List.take 5) hpre.2
    rw [List.take_take] at h2
    simp only [Nat.min_def, show (5 : Nat) ≤ 10 by omega, if_true] at h2
    rw [h2] at h1
    exact absurd h1 (by decide)

/-- **C12 (partial).** Missing: texts whose human-readable prefix does not agree
with the network nibble, for which the claim fails (`C12_prefix_not_checked`).
When the prefix is the one the class uses for that network nibble, re-encoding the
decoded address gives the text back in lower case. -/
theorem C12_reencode_partial (s hrp data : Bytes) (hd : Bech32.decode s = .ok (hrp, data)) :
    (∀ a, Base.fromBech32 s = .ok a →
      hrp = (if a.header.toNat % 16 = 1 then ascii "addr" else ascii "addr_test") →
      a.toBech32 = .ok (s.map toLower)) ∧
    (∀ a, enterpriseFromBech32 s = .ok a →
      hrp = (if a.header.toNat % 16 = 1 then ascii "addr" else ascii "addr_test") →
      enterpriseToBech32 a = .ok (s.map toLower)) ∧
    (∀ a, rewardsFromBech32 s = .ok a →
      hrp = (if a.header.toNat % 16 = 1 then ascii "stake" else ascii "stake_test") →
      rewardsToBech32 a = .ok (s.map toLower)) := by
  have htag : ∀ h : UInt8, getNetworkTag h = 1 ↔ h.toNat % 16 = 1 := forall_byte (by decide +kernel)
  have hre := Bech32.C04_bech32_canonical s hrp data hd
  refine ⟨?_, ?_, ?_⟩
  · intro a ha hh
    obtain ⟨hrp', h'⟩ := base_decoded_bytes ha
    rw [hd] at h'
    simp only [Out.ok.injEq, Prod.mk.injEq] at h'
    rw [← hre, h'.2, hh]
    unfold Base.toBech32
    by_cases hc : a.header.toNat % 16 = 1
    · rw [if_pos ((htag _).2 hc), if_pos hc]
    · rw [if_neg (fun x => hc ((htag _).1 x)), if_neg hc]
  · intro a ha hh
    obtain ⟨hrp', h'⟩ := single_decoded_bytes ha
    rw [hd] at h'
    simp only [Out.ok.injEq, Prod.mk.injEq] at h'
    rw [← hre, h'.2, hh]
    unfold enterpriseToBech32 Single.toBech32
    by_cases hc : a.header.toNat % 16 = 1
    · rw [if_pos ((htag _).2 hc), if_pos hc]
    · rw [if_neg (fun x => hc ((htag _).1 x)), if_neg hc]
  · intro a ha hh
    obtain ⟨hrp', h'⟩ := single_decoded_bytes ha
    rw [hd] at h'
    simp only [Out.ok.injEq, Prod.mk.injEq] at h'
    rw [← hre, h'.2, hh]
    unfold rewardsToBech32 Single.toBech32
    by_cases hc : a.header.toNat % 16 = 1
    · rw [if_pos ((htag _).2 hc), if_pos hc]
    · rw [if_neg (fun x => hc ((htag _).1 x)), if_neg hc]

/-- Letter case does not matter to the Bech32 decoder. -/
theorem decode_lower (s : Bytes) : Bech32.decode (s.map toLower) = Bech32.decode s := by
  unfold Bech32.decode
  simp only [Bech32.map_toLower_idem, List.length_map]

/-- **C12, exactly when.** An accepted text re-encodes to itself in lower case precisely if its
human-readable prefix is the one its class uses for the network nibble (`1`: main net, anything
else: test net). -/
theorem C12_reencode_iff (s hrp data : Bytes) (hd : Bech32.decode s = .ok (hrp, data)) :
    (∀ a, Base.fromBech32 s = .ok a → (a.toBech32 = .ok (s.map toLower) ↔
      hrp = if a.header.toNat % 16 = 1 then ascii "addr" else ascii "addr_test")) ∧
    (∀ a, enterpriseFromBech32 s = .ok a → (enterpriseToBech32 a = .ok (s.map toLower) ↔
      hrp = if a.header.toNat % 16 = 1 then ascii "addr" else ascii "addr_test")) ∧
    (∀ a, rewardsFromBech32 s = .ok a → (rewardsToBech32 a = .ok (s.map toLower) ↔
      hrp = if a.header.toNat % 16 = 1 then ascii "stake" else ascii "stake_test")) := by
  have htag : ∀ h : UInt8, getNetworkTag h = 1 ↔ h.toNat % 16 = 1 := forall_byte (by decide +kernel)
  obtain ⟨p1, p2, p3⟩ := C12_reencode_partial s hrp data hd
  have back : ∀ (name : String) (x : Bytes), ascii name ≠ [] → (∀ c ∈ ascii name, ¬ Bech32.specUpper c) →
      Bech32.encode (ascii name) x = .ok (s.map toLower) → hrp = ascii name := by
    intro name x h1 h2 he
    obtain ⟨t, e, d⟩ := (Bech32.C03_bech32_roundtrip (ascii name) x).1 h1 h2
    rw [he] at e
    rw [← Out.ok.inj e, decode_lower, hd] at d
    exact (Prod.mk.inj (Out.ok.inj d)).1
  have n1 := fun x => back "addr" x (by decide +kernel) (by decide +kernel)
  have n2 := fun x => back "addr_test" x (by decide +kernel) (by decide +kernel)
  have n3 := fun x => back "stake" x (by decide +kernel) (by decide +kernel)
  have n4 := fun x => back "stake_test" x (by decide +kernel) (by decide +kernel)
  refine ⟨fun a ha => ⟨fun h => ?_, p1 a ha⟩, fun a ha => ⟨fun h => ?_, p2 a ha⟩, fun a ha => ⟨fun h => ?_, p3 a ha⟩⟩
  · unfold Base.toBech32 at h
    by_cases hc : a.header.toNat % 16 = 1
    · rw [if_pos ((htag _).2 hc)] at h
      rw [if_pos hc]; exact n1 _ h
    · rw [if_neg (fun x => hc ((htag _).1 x))] at h
      rw [if_neg hc]; exact n2 _ h
  · unfold enterpriseToBech32 Single.toBech32 at h
    by_cases hc : a.header.toNat % 16 = 1
    · rw [if_pos ((htag _).2 hc)] at h
      rw [if_pos hc]; exact n1 _ h
    · rw [if_neg (fun x => hc ((htag _).1 x))] at h
      rw [if_neg hc]; exact n2 _ h
  · unfold rewardsToBech32 Single.toBech32 at h
    by_cases hc : a.header.toNat % 16 = 1
    · rw [if_pos ((htag _).2 hc)] at h
      rw [if_pos hc]; exact n3 _ h
    · rw [if_neg (fun x => hc ((htag _).1 x))] at h
      rw [if_neg hc]; exact n4 _ h

/-- the hypotheses of C12 are met by every address the library itself prints -/
example (nid : NetworkID) (k : Bytes) (hk : k.length = 28) : ∃ s hrp data,
    Bech32.decode s = .ok (hrp, data) ∧ rewardsFromBech32 s = .ok (rewards nid k) := by
  obtain ⟨s, _, h⟩ := C10_rewards_roundtrip nid k hk
  obtain ⟨hrp, h'⟩ := single_decoded_bytes h
  exact ⟨s, hrp, _, h', h⟩

/-! ### chain pointers -/

/-- Specification decoder: read one variable-length natural (seven bits per byte,
most significant group first, high bit set on all but the last byte). -/
def readVar : (acc : Nat) → Bytes → Option (Nat × Bytes)
  | _, [] => none
  | acc, b :: bs => if b.toNat < 128 then some (acc * 128 + b.toNat, bs) else readVar (acc * 128 + (b.toNat - 128)) bs

/-- Specification decoder for a pointer: three naturals, nothing left over. -/
def readPointer (bs : Bytes) : Option (Nat × Nat × Nat) := do
  let (s, r) ← readVar 0 bs
  let (t, r) ← readVar 0 r
  let (c, r) ← readVar 0 r
  if r = [] then some (s, t, c) else none

theorem ptrHigh_read : ∀ (fuel v : Nat) (out : Bytes), v ≤ fuel →
    readVar 0 (ptrHigh fuel v out) = readVar v out := by
  intro fuel
  induction fuel with
  | zero => intro v out h; have : v = 0 := by omega
            subst this; rfl
  | succ fuel ih =>
    intro v out h
    by_cases hv : v = 0
    · subst hv; simp [ptrHigh]
    · rw [ptrHigh, if_pos (by omega), ih _ _ (by rw [Nat.shiftRight_eq_div_pow]; omega)]
      have hor : 0x80 ||| (v &&& 0x7f) = 128 + v % 128 := by
        rw [show (0x7f : Nat) = 2 ^ 7 - 1 by decide, Nat.and_two_pow_sub_one_eq_mod]
        have := Nat.two_pow_add_eq_or_of_lt (i := 7) (b := v % 2 ^ 7) (Nat.mod_lt _ (by decide)) 1
        simpa using this.symm
      rw [hor, readVar]
      have hn : (UInt8.ofNat (128 + v % 128)).toNat = 128 + v % 128 := by
        simp [UInt8.toNat_ofNat']; omega
      rw [hn, if_neg (by omega), Nat.shiftRight_eq_div_pow]
      have : v / 2 ^ 7 * 128 + (128 + v % 128 - 128) = v := by omega
      rw [this]

theorem ptrField_read (v : Nat) (out : Bytes) : readVar 0 (ptrField v out) = some (v, out) := by
  unfold ptrField
  rw [ptrHigh_read _ _ _ (Nat.le_refl _), readVar]
  rw [show (0x7f : Nat) = 2 ^ 7 - 1 by decide, Nat.and_two_pow_sub_one_eq_mod]
  have hn : (UInt8.ofNat (v % 2 ^ 7)).toNat = v % 2 ^ 7 := by
    simp [UInt8.toNat_ofNat']; omega
  rw [hn, if_pos (by omega), Nat.shiftRight_eq_div_pow]
  have : v / 2 ^ 7 * 128 + v % 2 ^ 7 = v := by omega
  rw [this]

/-- **C13.** Every pointer is parsed back from its bytes, so different pointers
have different encodings. (Holds for all naturals, hence for all 64-bit values.) -/
theorem C13_pointer_unique (s t c s' t' c' : Nat) :
    readPointer (pointerToBytes s t c) = some (s, t, c) ∧
    (pointerToBytes s t c = pointerToBytes s' t' c' → s = s' ∧ t = t' ∧ c = c') := by
  have h : ∀ s t c, readPointer (pointerToBytes s t c) = some (s, t, c) := by
    intro s t c
    unfold pointerToBytes readPointer
    simp [ptrField_read]
  refine ⟨h s t c, fun he => ?_⟩
  have h2 := h s t c
  rw [he, h s' t' c'] at h2
  simp only [Option.some.injEq, Prod.mk.injEq] at h2
  exact ⟨h2.1.symm, h2.2.1.symm, h2.2.2.symm⟩

example : pointerToBytes 2498243 27 3 = [129, 152, 189, 67, 27, 3] := by decide

end Cardano.Address
