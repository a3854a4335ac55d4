import Verif.Lemmas.TxFee

/-! # C53, C54: transaction fees

`updateFee`, `calculateFee` and `balance` find the minimum fee of a transaction whose size
depends on that fee. -/

namespace Cardano.TxBuilder

open Cardano Cardano.Ledger Cardano.Cbor Cardano.Spec.TxBuilder

/-! ## Sizes -/

theorem vkeys_length (ws : List VkeyWitness) (h : ∀ w ∈ ws, WitnessSized w) :
    (encList (ws.map fun w => Item.array w.ser)).length = 101 * ws.length := by
  induction ws with
  | nil => simp [encList]
  | cons w ws ih =>
    obtain ⟨h1, h2⟩ := h w (by simp)
    have ih' := ih fun w hw => h w (by simp [hw])
    rw [List.map_cons, encList, List.length_append, ih']
    simp only [encList, List.length_append, VkeyWitness.ser, enc,
      h1, h2, List.length_cons, List.length_nil, encHeader_length]
    simp only [show uintSize (0 + 1 + 1) = 1 from rfl, show uintSize 32 = 2 from rfl, show uintSize 64 = 2 from rfl]
    omega

/-- Size of the key witnesses' map entry. -/
def vkeysSize (n : Nat) : Nat := if n = 0 then 0 else 1 + uintSize n + 101 * n

theorem vkeysEntry_size (ws : List VkeyWitness) (h : ∀ w ∈ ws, WitnessSized w) :
    (encList (vkeysEntry ws)).length = vkeysSize ws.length ∧
      (vkeysEntry ws).length = if ws.length = 0 then 0 else 2 := by
  unfold vkeysEntry vkeysSize
  cases ws with
  | nil => simp [encList]
  | cons w ws =>
    simp only [reduceCtorEq, if_false, List.length_cons, Nat.add_one_ne_zero]
    refine ⟨?_, rfl⟩
    have := vkeys_length (w :: ws) h
    simp only [encList, enc, List.length_append, encHeader_length, List.length_map, this, List.length_cons,
      List.length_nil, show uintSize 0 = 1 from rfl]
    omega

theorem vkeysSize_mono {m n : Nat} (h : m ≤ n) : vkeysSize m ≤ vkeysSize n := by
  unfold vkeysSize
  have := uintSize_mono h
  split <;> split <;> omega

theorem wits_size (w : WitnessSet) (ws : List VkeyWitness) (h : ∀ w ∈ ws, WitnessSized w) :
    (enc (.map (WitnessSet.ser { w with vkeys := ws }))).length =
      uintSize (((if ws.length = 0 then 0 else 2) + (multisigEntry w.multisig ++ bootstrapEntry w.bootstrap).length) / 2)
        + vkeysSize ws.length + (encList (multisigEntry w.multisig ++ bootstrapEntry w.bootstrap)).length := by
  obtain ⟨h1, h2⟩ := vkeysEntry_size ws h
  unfold WitnessSet.ser
  dsimp only
  rw [enc, List.append_assoc, encList_append, List.length_append, encHeader_length,
    List.length_append (as := encList (vkeysEntry ws)), h1, List.length_append (as := vkeysEntry ws), h2]
  omega

theorem dummy_sized (n : Nat) : ∀ w ∈ List.replicate n (⟨List.replicate 32 0, List.replicate 64 0⟩ : VkeyWitness),
    WitnessSized w := by
  intro w hw
  rw [List.eq_of_mem_replicate hw]
  simp [WitnessSized]

/-- The size of a transaction depends on the number of key witnesses only, so the random dummy
witnesses of the code can be any. -/
theorem size_wits (t : Tx) (ws : List VkeyWitness) (h : ∀ w ∈ ws, WitnessSized w) (f : Nat) :
    sizeWithFee (withWitnesses t ws) f = sizeWithFee (dummyTx t ws.length) f := by
  cases hc : certsEntry t.body.certificates with
  | ok cs =>
    rw [ser_length (withWitnesses t ws) cs hc, ser_length (dummyTx t ws.length) cs hc]
    have h1 := wits_size t.wits ws h
    have h2 := wits_size t.wits _ (dummy_sized ws.length)
    rw [List.length_replicate] at h2
    congr 1
    unfold baseSize withWitnesses dummyTx
    dsimp only
    rw [h1, h2]
  | throw e =>
    unfold sizeWithFee Tx.serialize Tx.ser TxBody.ser withWitnesses dummyTx
    dsimp only; rw [hc]; rfl
  | ub =>
    unfold sizeWithFee Tx.serialize Tx.ser TxBody.ser withWitnesses dummyTx
    dsimp only; rw [hc]; rfl

/-- Fewer key witnesses, smaller transaction. -/
theorem size_fewer (t : Tx) (m n : Nat) (hmn : m ≤ n) (f s : Nat) (hs : sizeWithFee (dummyTx t n) f = .ok s) :
    ∃ s', sizeWithFee (dummyTx t m) f = .ok s' ∧ s' ≤ s := by
  cases hc : certsEntry t.body.certificates with
  | ok cs =>
    rw [ser_length (dummyTx t n) cs hc] at hs
    refine ⟨_, ser_length (dummyTx t m) cs hc f, ?_⟩
    injection hs with hs
    rw [← hs]
    have h1 := wits_size t.wits _ (dummy_sized m)
    have h2 := wits_size t.wits _ (dummy_sized n)
    rw [List.length_replicate] at h1 h2
    unfold baseSize dummyTx
    dsimp only
    rw [h1, h2]
    have := vkeysSize_mono hmn
    have : uintSize (((if m = 0 then 0 else 2) + (multisigEntry t.wits.multisig ++ bootstrapEntry t.wits.bootstrap).length) / 2)
        ≤ uintSize (((if n = 0 then 0 else 2) + (multisigEntry t.wits.multisig ++ bootstrapEntry t.wits.bootstrap).length) / 2) := by
      apply uintSize_mono
      apply Nat.div_le_div_right
      split <;> split <;> omega
    omega
  | throw e =>
    rw [show sizeWithFee (dummyTx t n) f = .throw e by
      unfold sizeWithFee Tx.serialize Tx.ser TxBody.ser dummyTx
      dsimp only; rw [hc]; rfl] at hs
    cases hs
  | ub =>
    rw [show sizeWithFee (dummyTx t n) f = .ub by
      unfold sizeWithFee Tx.serialize Tx.ser TxBody.ser dummyTx
      dsimp only; rw [hc]; rfl] at hs
    cases hs

theorem txSize_iff (t : Tx) (f s : Nat) : TxSize (withFee t f) s ↔ sizeWithFee t f = .ok s := by
  unfold TxSize sizeWithFee withFee
  cases h : Tx.serialize { t with body := { t.body with fee := f } } with
  | ok x => simp
  | throw e => simp
  | ub => simp

theorem withFee_self (t : Tx) : withFee t t.body.fee = t := rfl

theorem txSize_iff' (t : Tx) (s : Nat) : TxSize t s ↔ sizeWithFee t t.body.fee = .ok s := by
  rw [← txSize_iff, withFee_self]

theorem u64_of_nonneg {x : Int} (h : 0 ≤ x) (hx : x < 2 ^ 64) : u64 x = x.toNat := by
  unfold u64; rw [Int.emod_eq_of_lt h hx]

/-! ## C54 -/

theorem calculateFee_eq (b : Builder) (n K k : Nat) (hK : ∀ f, sizeWithFee (dummyTx b.tx n) f = .ok (K + uintSize f)) :
    calculateFee k b n = feeLoop (dummyTx b.tx n) (u64 b.minFeeA) (u64 b.minFeeB) k b.tx.body.fee
      (feeFn (u64 b.minFeeA) (u64 b.minFeeB) K b.tx.body.fee) := by
  unfold calculateFee
  rw [hK]; rfl

/-- **C54**: `calculateFee` always terminates (in at most 12 rounds) with a fee that is the
minimum fee of the transaction carrying that fee and any `n` key witnesses — for every
transaction that can be serialized, whatever its current fee, as long as the fee parameters
are not negative and the fee fits 64 bits. -/
theorem C54_calculateFee_partial (b : Builder) (n k s : Nat) (ws : List VkeyWitness) (hn : ws.length = n)
    (hws : ∀ w ∈ ws, WitnessSized w) (hs : TxSize (withWitnesses b.tx ws) s)
    (ha : 0 ≤ b.minFeeA) (hb : 0 ≤ b.minFeeB)
    (hfit : minFee b.minFeeA.toNat b.minFeeB.toNat (s + 8) < 2 ^ 64) (ha64 : b.minFeeA < 2 ^ 63) (hk : 12 ≤ k) :
    ∃ f s', calculateFee k b n = some (.ok f) ∧ TxSize (withFee (withWitnesses b.tx ws) f) s' ∧
      f = minFee b.minFeeA.toNat b.minFeeB.toNat s' := by
  subst hn
  rw [txSize_iff', size_wits b.tx ws hws] at hs
  have hb64 : b.minFeeB < 2 ^ 64 := by unfold minFee at hfit; omega
  rcases size_fee (dummyTx b.tx ws.length) with ⟨K, hK⟩ | ⟨e, he⟩ | hu
  · rw [hK] at hs
    injection hs with hs
    have hw : NoWrap b.minFeeA.toNat b.minFeeB.toNat K := by
      unfold NoWrap; unfold minFee at hfit
      have := uintSize_pos (withWitnesses b.tx ws).body.fee
      have : b.minFeeA.toNat * (K + 9) ≤ b.minFeeA.toNat * (s + 8) := Nat.mul_le_mul_left _ (by omega)
      omega
    rw [calculateFee_eq b _ K k hK, u64_of_nonneg ha (by omega), u64_of_nonneg hb hb64]
    have fin : ∀ v, feeLoop (dummyTx b.tx ws.length) b.minFeeA.toNat b.minFeeB.toNat k b.tx.body.fee
        (feeFn b.minFeeA.toNat b.minFeeB.toNat K b.tx.body.fee) = some (.ok v) →
        ∃ f s', some (Out.ok v) = some (.ok f) ∧ TxSize (withFee (withWitnesses b.tx ws) f) s' ∧
          f = minFee b.minFeeA.toNat b.minFeeB.toNat s' := by
      intro v hv
      obtain ⟨v', h1, h2⟩ := feeLoop_fix _ _ _ K hK _ _ _ hv
      injection h1 with h1; subst h1
      refine ⟨v, K + uintSize v, rfl, ?_, ?_⟩
      · rw [txSize_iff, size_wits b.tx ws hws, hK]
      · rw [feeFn_eq hw] at h2; exact h2.symm
    rcases Nat.le_total b.tx.body.fee (feeFn b.minFeeA.toNat b.minFeeB.toNat K b.tx.body.fee) with hl | hl
    · obtain ⟨v, h1, -, -⟩ := feeLoop_up _ _ _ K hK hw k _ hl (by omega)
      rw [h1]; exact fin v h1
    · have := uintSize_le b.tx.body.fee
      obtain ⟨v, h1, -, -⟩ := feeLoop_down _ _ _ K hK hw k _ hl (by omega)
      rw [h1]; exact fin v h1
  · rw [he] at hs; cases hs
  · rw [hu] at hs; cases hs

/-- **C54**, exactly: which self-consistent fee `calculateFee` returns.  If the minimum fee of the transaction as it stands is at least the fee it
carries, the result is the least self-consistent fee from the carried fee upwards; if it is at most that fee, the result is the greatest
self-consistent fee from the carried fee downwards. -/
theorem C54_nearest (b : Builder) (n k s : Nat) (ws : List VkeyWitness) (hn : ws.length = n)
    (hws : ∀ w ∈ ws, WitnessSized w) (hs : TxSize (withWitnesses b.tx ws) s)
    (ha : 0 ≤ b.minFeeA) (hb : 0 ≤ b.minFeeB)
    (hfit : minFee b.minFeeA.toNat b.minFeeB.toNat (s + 8) < 2 ^ 64) (ha64 : b.minFeeA < 2 ^ 63) (hk : 12 ≤ k) :
    let SelfConsistent := fun g => ∃ s', TxSize (withFee (withWitnesses b.tx ws) g) s' ∧ g = minFee b.minFeeA.toNat b.minFeeB.toNat s'
    let current := b.tx.body.fee
    ∃ f, calculateFee k b n = some (.ok f) ∧ SelfConsistent f ∧
      (current ≤ minFee b.minFeeA.toNat b.minFeeB.toNat s → current ≤ f ∧ ∀ g, SelfConsistent g → current ≤ g → f ≤ g) ∧
      (minFee b.minFeeA.toNat b.minFeeB.toNat s ≤ current → f ≤ current ∧ ∀ g, SelfConsistent g → g ≤ current → g ≤ f) := by
  intro SC current
  subst hn
  rw [txSize_iff', size_wits b.tx ws hws] at hs
  have hb64 : b.minFeeB < 2 ^ 64 := by unfold minFee at hfit; omega
  rcases size_fee (dummyTx b.tx ws.length) with ⟨K, hK⟩ | ⟨e, he⟩ | hu
  · rw [hK] at hs
    injection hs with hs
    have hw : NoWrap b.minFeeA.toNat b.minFeeB.toNat K := by
      unfold NoWrap; unfold minFee at hfit
      have := uintSize_pos (withWitnesses b.tx ws).body.fee
      have : b.minFeeA.toNat * (K + 9) ≤ b.minFeeA.toNat * (s + 8) := Nat.mul_le_mul_left _ (by omega)
      omega
    have hsc : ∀ g, SC g ↔ feeFn b.minFeeA.toNat b.minFeeB.toNat K g = g := by
      intro g
      constructor
      · rintro ⟨s', h1, h2⟩
        rw [txSize_iff, size_wits b.tx ws hws, hK] at h1
        rw [feeFn_eq hw, Out.ok.inj h1]; exact h2.symm
      · intro h
        refine ⟨K + uintSize g, ?_, ?_⟩
        · rw [txSize_iff, size_wits b.tx ws hws, hK]
        · rw [feeFn_eq hw] at h; exact h.symm
    have hcur : minFee b.minFeeA.toNat b.minFeeB.toNat s = feeFn b.minFeeA.toNat b.minFeeB.toNat K current := by
      rw [feeFn_eq hw, ← hs]; rfl
    have htot : ∃ v, calculateFee k b ws.length = some (.ok v) ∧
        (current ≤ feeFn b.minFeeA.toNat b.minFeeB.toNat K current → current ≤ v ∧
          ∀ p, current ≤ p → feeFn b.minFeeA.toNat b.minFeeB.toNat K p = p → v ≤ p) ∧
        (feeFn b.minFeeA.toNat b.minFeeB.toNat K current ≤ current → v ≤ current ∧
          ∀ p, p ≤ current → feeFn b.minFeeA.toNat b.minFeeB.toNat K p = p → p ≤ v) := by
      rw [calculateFee_eq b _ K k hK, u64_of_nonneg ha (by omega), u64_of_nonneg hb hb64]
      have hle := uintSize_le current
      by_cases h1 : current ≤ feeFn b.minFeeA.toNat b.minFeeB.toNat K current
      · obtain ⟨v, e1, e2, e3⟩ := feeLoop_up _ _ _ K hK hw k _ h1 (by omega)
        refine ⟨v, e1, fun _ => ⟨e2, e3⟩, fun h2 => ?_⟩
        obtain ⟨v', d1, d2, d3⟩ := feeLoop_down _ _ _ K hK hw k _ h2 (by omega)
        obtain rfl : v = v' := by
          have := e1.symm.trans d1
          exact Out.ok.inj (Option.some.inj this)
        exact ⟨d2, d3⟩
      · obtain ⟨v', d1, d2, d3⟩ := feeLoop_down _ _ _ K hK hw k _ (Nat.le_of_not_le h1) (by omega)
        exact ⟨v', d1, fun h => absurd h h1, fun _ => ⟨d2, d3⟩⟩
    obtain ⟨v, e1, e2, e3⟩ := htot
    refine ⟨v, e1, ?_, ?_, ?_⟩
    · rw [hsc]
      rw [calculateFee_eq b _ K k hK, u64_of_nonneg ha (by omega), u64_of_nonneg hb hb64] at e1
      obtain ⟨v', h1, h2⟩ := feeLoop_fix _ _ _ K hK _ _ _ e1
      obtain rfl := Out.ok.inj h1
      exact h2
    · intro h
      rw [hcur] at h
      exact ⟨(e2 h).1, fun g hg hp => (e2 h).2 g hp ((hsc g).mp hg)⟩
    · intro h
      rw [hcur] at h
      exact ⟨(e3 h).1, fun g hg hp => (e3 h).2 g hp ((hsc g).mp hg)⟩
  · rw [he] at hs; cases hs
  · rw [hu] at hs; cases hs

/-! ### What `updateFee` leaves -/

theorem setFee_setFee (b : Builder) (f g : Nat) : setFee (setFee b f) g = setFee b g := rfl
theorem dummyTx_setFee (b : Builder) (f n : Nat) : sizeWithFee (dummyTx (setFee b f).tx n) = sizeWithFee (dummyTx b.tx n) := rfl

theorem updateLoop_frame (k n : Nat) : ∀ r b cf b' o, updateLoop k n r b cf = some (b', o) →
    b' = b ∨ ∃ f, b' = setFee b f := by
  intro r
  induction r with
  | zero => intro b cf b' o h; simp [updateLoop] at h
  | succ r ih =>
    intro b cf b' o h
    rw [updateLoop] at h
    split at h
    · injection h with h; injection h with h1 h2
      exact Or.inl h1.symm
    · right
      split at h
      · cases h
      · rcases ih _ _ _ _ h with rfl | ⟨f, rfl⟩
        · exact ⟨_, rfl⟩
        · exact ⟨f, rfl⟩
      · injection h with h; injection h with h1 h2; exact ⟨_, h1.symm⟩
      · injection h with h; injection h with h1 h2; exact ⟨_, h1.symm⟩

/-- `updateFee` changes the fee and removes the key witnesses; nothing else. -/
theorem updateFee_frame (k : Nat) (b b' : Builder) (n : Nat) (o : Out Unit) (h : updateFee k b n = some (b', o)) :
    ∃ f, b' = setFee b f := by
  unfold updateFee at h
  dsimp only at h
  split at h
  · cases h
  · rcases updateLoop_frame _ _ _ _ _ _ _ h with rfl | ⟨f, rfl⟩
    · exact ⟨_, rfl⟩
    · exact ⟨f, rfl⟩
  · injection h with h; injection h with h1 h2; exact ⟨_, h1.symm⟩
  · injection h with h; injection h with h1 h2; exact ⟨_, h1.symm⟩

theorem updateLoop_ok (k n : Nat) : ∀ r b cf b', calculateFee k b n = some (.ok cf) →
    updateLoop k n r b cf = some (b', .ok ()) → calculateFee k b' n = some (.ok b'.tx.body.fee) := by
  intro r
  induction r with
  | zero => intro b cf b' _ h; simp [updateLoop] at h
  | succ r ih =>
    intro b cf b' hc h
    rw [updateLoop] at h
    split at h
    · rename_i he
      injection h with h; injection h with h1 h2
      rw [← h1, hc, he]
    · split at h
      · cases h
      · rename_i f hf; exact ih _ _ _ hf h
      · injection h with h; injection h with h1 h2; cases h2
      · injection h with h; injection h with h1 h2; cases h2

theorem updateFee_ok (k : Nat) (b b' : Builder) (n : Nat) (h : updateFee k b n = some (b', .ok ())) :
    calculateFee k b' n = some (.ok b'.tx.body.fee) := by
  unfold updateFee at h
  dsimp only at h
  split at h
  · cases h
  · rename_i f hf; exact updateLoop_ok _ _ _ _ _ _ hf h
  · injection h with h; injection h with h1 h2; cases h2
  · injection h with h; injection h with h1 h2; cases h2

theorem calculateFee_ok (k : Nat) (b : Builder) (n f : Nat) (h : calculateFee k b n = some (.ok f)) :
    ∃ K, (∀ g, sizeWithFee (dummyTx b.tx n) g = .ok (K + uintSize g)) ∧
      feeFn (u64 b.minFeeA) (u64 b.minFeeB) K f = f := by
  rcases size_fee (dummyTx b.tx n) with ⟨K, hK⟩ | ⟨e, he⟩ | hu
  · rw [calculateFee_eq b n K k hK] at h
    obtain ⟨v, h1, h2⟩ := feeLoop_fix _ _ _ K hK _ _ _ h
    injection h1 with h1; subst h1
    exact ⟨K, hK, h2⟩
  · unfold calculateFee at h; rw [he] at h; simp at h
  · unfold calculateFee at h; rw [hu] at h; simp at h

/-- **C54**: `updateFee` terminates and sets the *least* fee that equals the minimum fee of the
transaction carrying it (with any `n` key witnesses), whatever the fee was before. -/
theorem C54_updateFee (b : Builder) (n k s : Nat) (ws : List VkeyWitness) (hn : ws.length = n)
    (hws : ∀ w ∈ ws, WitnessSized w) (hs : TxSize (withWitnesses b.tx ws) s)
    (ha : 0 ≤ b.minFeeA) (hb : 0 ≤ b.minFeeB)
    (hfit : minFee b.minFeeA.toNat b.minFeeB.toNat (s + 8) < 2 ^ 64) (ha64 : b.minFeeA < 2 ^ 63) (hk : 12 ≤ k) :
    ∃ b', updateFee k b n = some (b', .ok ()) ∧
      (∃ s', TxSize (withWitnesses b'.tx ws) s' ∧
        b'.tx.body.fee = minFee b.minFeeA.toNat b.minFeeB.toNat s') ∧
      ∀ f s', TxSize (withFee (withWitnesses b.tx ws) f) s' → f = minFee b.minFeeA.toNat b.minFeeB.toNat s' →
        b'.tx.body.fee ≤ f := by
  subst hn
  rw [txSize_iff', size_wits b.tx ws hws] at hs
  have hb64 : b.minFeeB < 2 ^ 64 := by unfold minFee at hfit; omega
  rcases size_fee (dummyTx b.tx ws.length) with ⟨K, hK⟩ | ⟨e, he⟩ | hu
  · rw [hK] at hs
    injection hs with hs
    have hw : NoWrap b.minFeeA.toNat b.minFeeB.toNat K := by
      unfold NoWrap; unfold minFee at hfit
      have := uintSize_pos (withWitnesses b.tx ws).body.fee
      have : b.minFeeA.toNat * (K + 9) ≤ b.minFeeA.toNat * (s + 8) := Nat.mul_le_mul_left _ (by omega)
      omega
    have eA : u64 b.minFeeA = b.minFeeA.toNat := u64_of_nonneg ha (by omega)
    have eB : u64 b.minFeeB = b.minFeeB.toNat := u64_of_nonneg hb hb64
    have calcEq : ∀ x, calculateFee k (setFee b x) ws.length =
        feeLoop (dummyTx (setFee b x).tx ws.length) b.minFeeA.toNat b.minFeeB.toNat k x
          (feeFn b.minFeeA.toNat b.minFeeB.toNat K x) := by
      intro x
      have := calculateFee_eq (setFee b x) ws.length K k (by rw [dummyTx_setFee]; exact hK)
      rw [this]
      show feeLoop _ (u64 b.minFeeA) (u64 b.minFeeB) _ _ (feeFn (u64 b.minFeeA) (u64 b.minFeeB) _ _) = _
      rw [eA, eB]; rfl
    have hl : u64 b.minFeeB ≤ feeFn b.minFeeA.toNat b.minFeeB.toNat K (u64 b.minFeeB) := by
      rw [feeFn_eq hw, eB]; omega
    obtain ⟨v, h1, h2, h3⟩ := feeLoop_up (dummyTx (setFee b (u64 b.minFeeB)).tx ws.length) _ _ K
      (by rw [dummyTx_setFee]; exact hK) hw k _ hl (by have := uintSize_pos (u64 b.minFeeB); omega)
    obtain ⟨v', e1, hfix⟩ := feeLoop_fix _ _ _ K (by rw [dummyTx_setFee]; exact hK) _ _ _ h1
    injection e1 with e1; subst e1
    have hagain : calculateFee k (setFee b v) ws.length = some (.ok v) := by
      rw [calcEq, hfix]
      obtain ⟨j, rfl⟩ : ∃ j, k = j + 1 := ⟨k - 1, by omega⟩
      rw [feeLoop, if_pos rfl]
    have hup : updateFee k b ws.length = some (setFee b v, .ok ()) := by
      unfold updateFee
      dsimp only
      rw [calcEq, h1]
      obtain ⟨j, rfl⟩ : ∃ j, k = j + 2 := ⟨k - 2, by omega⟩
      dsimp only
      rw [updateLoop]
      split
      · rename_i he
        have : u64 b.minFeeB = v := he.symm
        rw [this]
      · rw [show setFee (setFee b (u64 b.minFeeB)) v = setFee b v from rfl, hagain]
        dsimp only
        rw [updateLoop, if_pos (show v = (setFee b v).tx.body.fee from rfl)]
    refine ⟨_, hup, ⟨K + uintSize v, ?_, ?_⟩, ?_⟩
    · rw [txSize_iff', size_wits (setFee b v).tx ws hws, dummyTx_setFee, hK]; rfl
    · show v = _
      unfold minFee
      rw [feeFn_eq hw] at hfix; exact hfix.symm
    · intro f s' hsz hf
      rw [txSize_iff, size_wits b.tx ws hws, hK] at hsz
      injection hsz with hsz
      show v ≤ f
      unfold minFee at hf
      refine h3 f ?_ ?_
      · rw [eB]; omega
      · rw [feeFn_eq hw, hsz]; exact hf.symm
  · rw [he] at hs; cases hs
  · rw [hu] at hs; cases hs

/-- **C54**: with a fixed fee part of at least 65536 (the default is 155381) and a fee below
2^32, the self-consistent fee is unique, so `calculateFee` too returns the least one. -/
theorem C54_unique (t : Tx) (a b f g s s' : Nat) (hb : 2 ^ 16 ≤ b)
    (hf : TxSize (withFee t f) s) (hg : TxSize (withFee t g) s')
    (ef : f = minFee a b s) (eg : g = minFee a b s') (lf : f < 2 ^ 32) (lg : g < 2 ^ 32) : f = g := by
  rw [txSize_iff] at hf hg
  have key : ∀ x, 2 ^ 16 ≤ x → x < 2 ^ 32 → uintSize x = 5 := by
    intro x h1 h2; unfold uintSize; (repeat' split) <;> omega
  have h5 := key f (by unfold minFee at ef; omega) lf
  have h5' := key g (by unfold minFee at eg; omega) lg
  rcases size_fee t with ⟨K, hK⟩ | ⟨e, he⟩ | hu
  · rw [hK, h5] at hf; rw [hK, h5'] at hg
    injection hf with hf; injection hg with hg
    rw [ef, eg, ← hf, ← hg]
  · rw [he] at hf; cases hf
  · rw [hu] at hf; cases hf

/-! ## C53 -/

theorem feeLoop_ge (t : Tx) (a b K : Nat) (hK : ∀ f, sizeWithFee t f = .ok (K + uintSize f)) (hw : NoWrap a b K) :
    ∀ k fee v, fee ≤ feeFn a b K fee → feeLoop t a b k fee (feeFn a b K fee) = some (.ok v) → feeFn a b K fee ≤ v := by
  intro k
  induction k with
  | zero => intro fee v _ h; simp [feeLoop] at h
  | succ k ih =>
    intro fee v hle h
    rw [feeLoop] at h
    split at h
    · injection h with h; injection h with h; omega
    · rw [hK] at h
      have hle2 := feeFn_mono hw hle
      have := ih _ _ hle2 h
      omega

/-- The builder's fee is not below what `calculateFee` reports. -/
def Pays (k : Nat) (b : Builder) (n : Nat) : Prop := ∃ f, f ≤ b.tx.body.fee ∧ calculateFee k b n = some (.ok f)

theorem pays_minFee (k : Nat) (b : Builder) (n : Nat) (h : Pays k b n) (ws : List VkeyWitness) (hn : ws.length ≤ n)
    (hws : ∀ w ∈ ws, WitnessSized w) (s : Nat) (ha : 0 ≤ b.minFeeA) (hb : 0 ≤ b.minFeeB) (ha64 : b.minFeeA < 2 ^ 63)
    (hs : TxSize (withWitnesses b.tx ws) s)
    (hfit : ∀ s', TxSize (dummyTx b.tx n) s' → minFee b.minFeeA.toNat b.minFeeB.toNat (s' + 8) < 2 ^ 64) :
    minFee b.minFeeA.toNat b.minFeeB.toNat s ≤ b.tx.body.fee := by
  obtain ⟨f, hf, hc⟩ := h
  obtain ⟨K, hK, hfix⟩ := calculateFee_ok k b n f hc
  rw [calculateFee_eq b n K k hK] at hc
  have hfit' := hfit (K + uintSize b.tx.body.fee) (by rw [txSize_iff', hK]; rfl)
  have hw : NoWrap b.minFeeA.toNat b.minFeeB.toNat K := by
    unfold NoWrap; unfold minFee at hfit'
    have := uintSize_pos b.tx.body.fee
    have : b.minFeeA.toNat * (K + 9) ≤ b.minFeeA.toNat * (K + uintSize b.tx.body.fee + 8) := Nat.mul_le_mul_left _ (by omega)
    omega
  have hb64 : b.minFeeB < 2 ^ 64 := by unfold minFee at hfit'; omega
  rw [u64_of_nonneg ha (by omega), u64_of_nonneg hb hb64] at hc hfix
  have hge : feeFn b.minFeeA.toNat b.minFeeB.toNat K b.tx.body.fee ≤ b.tx.body.fee := by
    rcases Nat.le_total b.tx.body.fee (feeFn b.minFeeA.toNat b.minFeeB.toNat K b.tx.body.fee) with hl | hl
    · have := feeLoop_ge _ _ _ K hK hw _ _ _ hl hc
      omega
    · exact hl
  rw [txSize_iff', size_wits b.tx ws hws] at hs
  obtain ⟨s', h1, h2⟩ := size_fewer b.tx ws.length n hn b.tx.body.fee (K + uintSize b.tx.body.fee) (hK _)
  have hs2 : sizeWithFee (dummyTx b.tx ws.length) b.tx.body.fee = .ok s := hs
  rw [h1] at hs2
  injection hs2 with hs2
  rw [feeFn_eq hw] at hge
  unfold minFee
  have : b.minFeeA.toNat * s ≤ b.minFeeA.toNat * (K + uintSize b.tx.body.fee) := Nat.mul_le_mul_left _ (by omega)
  omega

/-- **C53** for `updateFee`: if it returns, the fee is at least the minimum fee of the
transaction with up to `n` key witnesses of any content. -/
theorem C53_updateFee (k : Nat) (b b' : Builder) (n : Nat) (h : updateFee k b n = some (b', .ok ()))
    (ws : List VkeyWitness) (hn : ws.length ≤ n) (hws : ∀ w ∈ ws, WitnessSized w) (s : Nat)
    (ha : 0 ≤ b.minFeeA) (hb : 0 ≤ b.minFeeB) (ha64 : b.minFeeA < 2 ^ 63)
    (hs : TxSize (withWitnesses b'.tx ws) s)
    (hfit : ∀ s', TxSize (dummyTx b'.tx n) s' → minFee b.minFeeA.toNat b.minFeeB.toNat (s' + 8) < 2 ^ 64) :
    minFee b.minFeeA.toNat b.minFeeB.toNat s ≤ b'.tx.body.fee := by
  have h1 := updateFee_ok k b b' n h
  obtain ⟨f, hf⟩ := updateFee_frame k b b' n _ h
  have eA : b'.minFeeA = b.minFeeA := by rw [hf]; rfl
  have eB : b'.minFeeB = b.minFeeB := by rw [hf]; rfl
  rw [← eA, ← eB] at hfit ⊢
  exact pays_minFee k b' n ⟨_, Nat.le_refl _, h1⟩ ws hn hws s (eA ▸ ha) (eB ▸ hb) (eA ▸ ha64) hs hfit

/-- The builder a round ends with. -/
def Next.builder : Next → Builder
  | .again b => b
  | .stop b _ => b

theorem onNegative_frame (b : Builder) (c : Int) :
    (onNegative b c).builder = b ∨ ∃ outs, (onNegative b c).builder = setOutputs b outs := by
  unfold onNegative
  split
  · exact Or.inl rfl
  · split
    · exact Or.inr ⟨_, rfl⟩
    · exact Or.inl rfl
    · exact Or.inl rfl

/-- A round changes the outputs and the fee only. -/
theorem balanceStep_frame (k n : Nat) (force first : Bool) (b : Builder) (nx : Next)
    (h : balanceStep k n force first b = some nx) :
    ∃ outs fee, nx.builder = setBody b fun t => { t with outputs := outs, fee := fee } := by
  have self : ∀ b : Builder, b = setBody b fun t => { t with outputs := b.tx.body.outputs, fee := b.tx.body.fee } :=
    fun b => rfl
  unfold balanceStep at h
  split at h
  · split at h
    · injection h with h; subst h; exact ⟨_, _, self b⟩
    · split at h
      · injection h with h; rw [← h]
        rcases onNegative_frame b _ with h | ⟨outs, h⟩
        · exact ⟨_, _, h.trans (self b)⟩
        · exact ⟨outs, b.tx.body.fee, h⟩
      · unfold onPositive at h
        split at h
        · injection h with h; subst h; exact ⟨_, b.tx.body.fee, rfl⟩
        · split at h
          · unfold forceFee at h
            dsimp only at h
            split at h
            · cases h
            · split at h <;> (injection h with h; subst h; exact ⟨b.tx.body.outputs, _, rfl⟩)
            · injection h with h; subst h; exact ⟨b.tx.body.outputs, _, rfl⟩
            · injection h with h; subst h; exact ⟨b.tx.body.outputs, _, rfl⟩
          · injection h with h; subst h; exact ⟨_, _, self b⟩
  · injection h with h; subst h; exact ⟨_, _, self b⟩
  · injection h with h; subst h; exact ⟨_, _, self b⟩

theorem onNegative_not_ok (b : Builder) (c : Int) (b' : Builder) : onNegative b c ≠ .stop b' (.ok ()) := by
  unfold onNegative
  split
  · simp
  · split <;> simp

theorem balanceStep_pays (k n : Nat) (force first : Bool) (b b' : Builder) (hp : Pays k b n)
    (h : balanceStep k n force first b = some (.stop b' (.ok ()))) : Pays k b' n := by
  unfold balanceStep at h
  split at h
  · split at h
    · injection h with h; injection h with h1 h2; rw [← h1]; exact hp
    · split at h
      · injection h with h; exact absurd h (onNegative_not_ok _ _ _)
      · unfold onPositive at h
        split at h
        · injection h with h; cases h
        · split at h
          · unfold forceFee at h
            dsimp only at h
            split at h
            · cases h
            · rename_i f hf
              split at h
              · injection h with h; injection h with h1 h2; cases h2
              · rename_i hlt
                injection h with h; injection h with h1 h2
                rw [← h1]
                exact ⟨f, by omega, hf⟩
            · injection h with h; injection h with h1 h2; cases h2
            · injection h with h; injection h with h1 h2; cases h2
          · injection h with h; cases h
  · injection h with h; injection h with h1 h2; cases h2
  · injection h with h; injection h with h1 h2; cases h2

theorem balanceLoop_pays (k n : Nat) (force : Bool) : ∀ r first b b',
    balanceLoop k n force r first b = some (b', .ok ()) →
      Pays k b' n ∧ b'.minFeeA = b.minFeeA ∧ b'.minFeeB = b.minFeeB := by
  intro r
  induction r with
  | zero => intro first b b' h; simp [balanceLoop] at h
  | succ r ih =>
    intro first b b' h
    rw [balanceLoop] at h
    split at h
    · cases h
    · injection h with h; injection h with h1 h2; cases h2
    · injection h with h; injection h with h1 h2; cases h2
    · rename_i b1 _ hu
      have hp := updateFee_ok k b b1 n hu
      obtain ⟨f, hf⟩ := updateFee_frame k b b1 n _ hu
      have eA : b1.minFeeA = b.minFeeA := by rw [hf]; rfl
      have eB : b1.minFeeB = b.minFeeB := by rw [hf]; rfl
      split at h
      · cases h
      · rename_i b2 o hst
        injection h with h; injection h with h1 h2
        subst h1; subst h2
        obtain ⟨_, _, this⟩ := balanceStep_frame _ _ _ _ _ _ hst
        refine ⟨balanceStep_pays _ _ _ _ _ _ ⟨_, Nat.le_refl _, hp⟩ hst, ?_, ?_⟩
        · exact Eq.trans (congrArg (·.minFeeA) this) eA
        · exact Eq.trans (congrArg (·.minFeeB) this) eB
      · rename_i b2 hst
        obtain ⟨_, _, h2⟩ := balanceStep_frame _ _ _ _ _ _ hst
        obtain ⟨g1, g2, g3⟩ := ih _ _ _ h
        exact ⟨g1, g2.trans (Eq.trans (congrArg (·.minFeeA) h2) eA), g3.trans (Eq.trans (congrArg (·.minFeeB) h2) eB)⟩

/-- **C53** for `balance`: if it returns, forced or not, the fee is at least the minimum fee of
the transaction with up to `n` key witnesses of any content. -/
theorem C53_balance (k : Nat) (b b' : Builder) (n : Nat) (force : Bool) (h : balance k b n force = some (b', .ok ()))
    (ws : List VkeyWitness) (hn : ws.length ≤ n) (hws : ∀ w ∈ ws, WitnessSized w) (s : Nat)
    (ha : 0 ≤ b.minFeeA) (hb : 0 ≤ b.minFeeB) (ha64 : b.minFeeA < 2 ^ 63)
    (hs : TxSize (withWitnesses b'.tx ws) s)
    (hfit : ∀ s', TxSize (dummyTx b'.tx n) s' → minFee b.minFeeA.toNat b.minFeeB.toNat (s' + 8) < 2 ^ 64) :
    minFee b.minFeeA.toNat b.minFeeB.toNat s ≤ b'.tx.body.fee := by
  obtain ⟨h1, eA, eB⟩ := balanceLoop_pays k n force _ _ _ _ h
  rw [← eA, ← eB] at hfit ⊢
  exact pays_minFee k b' n h1 ws hn hws s (eA ▸ ha) (eB ▸ hb) (eA ▸ ha64) hs hfit

/-! ## Where C54 fails, and concrete cases -/

/-- An empty transaction takes 11 bytes and its fee. -/
theorem empty_size (f : Nat) : sizeWithFee {} f = .ok (11 + uintSize f) := by
  rw [ser_length {} [] rfl]; rfl

/-- **C54** fails for a negative fee coefficient, which `setMinFeeA` accepts: `updateFee` (and
`calculateFee`) never return.  Here with coefficients -1 and 36 on an empty transaction: the
calculated fee alternates between 23 and 24. -/
theorem C54_negative_diverges (k : Nat) :
    updateFee k { minFeeA := -1, minFeeB := 36 } 0 = none ∧
      calculateFee k { minFeeA := -1, minFeeB := 36 } 0 = none := by
  have e : dummyTx {} 0 = {} := rfl
  have loop : ∀ k, feeLoop {} (u64 (-1)) (u64 36) k 23 24 = none ∧ feeLoop {} (u64 (-1)) (u64 36) k 24 23 = none := by
    intro k
    induction k with
    | zero => exact ⟨rfl, rfl⟩
    | succ k ih =>
      constructor
      · rw [feeLoop, if_neg (by decide), empty_size]
        exact ih.2
      · rw [feeLoop, if_neg (by decide), empty_size]
        exact ih.1
  constructor
  · unfold updateFee calculateFee
    dsimp only
    rw [show dummyTx (setFee { minFeeA := -1, minFeeB := 36 } (u64 36)).tx 0 = withFee {} 36 from rfl,
      show sizeWithFee (withFee {} 36) = sizeWithFee {} from rfl, empty_size]
    dsimp only
    have : feeLoop (withFee {} 36) (u64 (-1)) (u64 36) k 36 23 = none := by
      cases k with
      | zero => rfl
      | succ k =>
        rw [feeLoop, if_neg (by decide), show sizeWithFee (withFee {} 36) = sizeWithFee {} from rfl, empty_size]
        have hc : ∀ k x y, feeLoop (withFee {} 36) (u64 (-1)) (u64 36) k x y = feeLoop {} (u64 (-1)) (u64 36) k x y := by
          intro k
          induction k with
          | zero => intros; rfl
          | succ k ih => intro x y; rw [feeLoop, feeLoop]; simp only [ih]; rfl
        exact (hc k 23 24).trans (loop k).1
    have h2 : feeLoop (withFee {} 36) (u64 (setFee { minFeeA := -1, minFeeB := 36 } (u64 36)).minFeeA)
        (u64 (setFee { minFeeA := -1, minFeeB := 36 } (u64 36)).minFeeB) k
        (setFee { minFeeA := -1, minFeeB := 36 } (u64 36)).tx.body.fee
        (feeFor (u64 (setFee { minFeeA := -1, minFeeB := 36 } (u64 36)).minFeeA)
          (u64 (setFee { minFeeA := -1, minFeeB := 36 } (u64 36)).minFeeB)
          (11 + uintSize (setFee { minFeeA := -1, minFeeB := 36 } (u64 36)).tx.body.fee)) = none := this
    rw [h2]
  · unfold calculateFee
    dsimp only
    rw [e, empty_size]
    dsimp only
    rw [show (feeFor (u64 (-1)) (u64 36) (11 + uintSize 0)) = 24 from rfl]
    cases k with
    | zero => rfl
    | succ k =>
      rw [feeLoop, if_neg (by decide), empty_size]
      exact (loop k).2

/-- **C54** fails for `calculateFee` in that its result depends on the fee already set: with a
fixed part of 64900 an empty transaction has the self-consistent fees 65516 and 65604;
`calculateFee` reports the larger one if the current fee is larger. -/
theorem C54_calculateFee_not_least :
    calculateFee 12 { minFeeB := 64900, tx := { body := { fee := 0 } } } 0 = some (.ok 65516) ∧
    calculateFee 12 { minFeeB := 64900, tx := { body := { fee := 100000 } } } 0 = some (.ok 65604) := by
  have h : ∀ f, (∀ g, sizeWithFee (dummyTx { body := { fee := f } } 0) g = .ok (11 + uintSize g)) := by
    intro f g; exact empty_size g
  constructor
  · rw [calculateFee_eq _ 0 11 12 (h _)]
    rw [feeLoop, if_neg (by decide +kernel), h]
    dsimp only
    rw [feeLoop, if_neg (by decide +kernel), h]
    dsimp only
    rw [feeLoop, if_pos (by decide +kernel)]
    exact congrArg (fun x => some (Out.ok x)) (by decide +kernel)
  · rw [calculateFee_eq _ 0 11 12 (h _)]
    rw [feeLoop, if_neg (by decide +kernel), h]
    dsimp only
    rw [feeLoop, if_pos (by decide +kernel)]
    exact congrArg (fun x => some (Out.ok x)) (by decide +kernel)

/-- A payment: one input, one output. -/
def sample : Builder :=
  { tx := { body := { inputs := [⟨List.replicate 32 7, 1⟩], outputs := [⟨List.replicate 57 1, 2000000⟩], ttl := 5000 } } }

/-- Hypotheses of `C54_updateFee` (and of `C54_calculateFee_partial`) met by a payment with one
witness. -/
example : TxSize (withWitnesses sample.tx [⟨List.replicate 32 1, List.replicate 64 2⟩]) 218 ∧
    minFee 44 155381 (218 + 8) < 2 ^ 64 := by
  refine ⟨?_, by decide⟩
  rw [txSize_iff', ser_length _ [] rfl]
  decide +kernel

/-- Hypotheses of `C54_nearest` met from both sides: an empty transaction with a fixed part of 64900, carrying the fee 0 (minimum fee 65428, above) and carrying
the fee 100000 (minimum fee 65604, below). -/
example : TxSize (withWitnesses ({ body := { fee := 0 } } : Tx) []) 12 ∧ 0 ≤ minFee 44 64900 12 ∧
    TxSize (withWitnesses ({ body := { fee := 100000 } } : Tx) []) 16 ∧ minFee 44 64900 16 ≤ 100000 ∧ minFee 44 64900 (16 + 8) < 2 ^ 64 := by
  refine ⟨?_, by decide, ?_, by decide, by decide⟩ <;> (rw [txSize_iff', ser_length _ [] rfl]; decide +kernel)

/-- The fee of the payment is 165149 = 44 · 222 + 155381, as computed by `updateFee`. -/
example : ((updateFee 12 sample 1).map fun r => r.1.tx.body.fee) = some 165149 := by decide +kernel

end Cardano.TxBuilder
