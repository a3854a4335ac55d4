import Verif.Props.TxFee
import Verif.Spec.BabbageHistory

/-! # C77: fees of the Babbage builder -/

namespace Cardano.BabbageBuilder

open Cardano Cardano.Ledger Cardano.Cbor Cardano.Spec.BabbageBuilder
open Cardano.TxBuilder (feeFor feeFn NoWrap feeFn_eq feeFn_mono feeFn_congr encHeader_length encList_append uintSize_mono
  uintSize_le uintSize_pos map_fee_length vkeysEntry_size vkeysSize vkeysSize_mono dummy_sized)
open Cardano.Spec.TxBuilder (uintSize minFee WitnessSized)

/-! ## Sizes -/

/-- The body's items before and after the fee. -/
def itemsA (t : Babbage.TxBody) : List Item :=
  [.uint 0, .array (t.inputs.map fun i => .array i.ser), .uint 1, .array (t.outputs.map Babbage.TxOut.ser), .uint 2]
def itemsB (t : Babbage.TxBody) : List Item := Babbage.ttlEntry t.ttl ++ withdrawalsEntry t.withdrawals

/-- The size of a transaction apart from the fee. -/
def baseSize (t : Babbage.Tx) : Nat :=
  1 + uintSize (((itemsA t.body).length + 1 + (itemsB t.body).length) / 2) + (encList (itemsA t.body)).length
    + (encList (itemsB t.body)).length + (enc (.map t.wits.ser)).length + 2

theorem sizeWithFee_eq (t : Babbage.Tx) (f : Nat) : sizeWithFee t f = baseSize t + uintSize f := by
  have hb : Babbage.TxBody.ser { t.body with fee := f } = itemsA t.body ++ .uint f :: itemsB t.body := by
    simp [Babbage.TxBody.ser, itemsA, itemsB]
  unfold sizeWithFee Babbage.Tx.serialize Babbage.Tx.ser
  dsimp only
  rw [hb]
  have := map_fee_length (itemsA t.body) (itemsB t.body) f
  unfold encArray baseSize
  rw [enc]
  simp only [encList, List.length_append, List.length_cons, List.length_nil, this]
  rw [encHeader_length, show uintSize (0 + 1 + 1 + 1 + 1) = 1 from rfl, show (enc Item.null).length = 1 from rfl,
    show (enc (Item.bool t.flag)).length = 1 by cases t.flag <;> rfl]
  omega

theorem size_withFee (t : Babbage.Tx) (f : Nat) : size (withFee t f) = sizeWithFee t f := rfl
theorem size_eq (t : Babbage.Tx) : size t = sizeWithFee t t.body.fee := rfl

theorem wits_size (ws : List VkeyWitness) (h : ∀ w ∈ ws, WitnessSized w) :
    (enc (.map (Babbage.WitnessSet.ser { vkeys := ws }))).length =
      uintSize ((if ws.length = 0 then 0 else 2) / 2) + vkeysSize ws.length := by
  obtain ⟨h1, h2⟩ := vkeysEntry_size ws h
  unfold Babbage.WitnessSet.ser
  dsimp only
  rw [enc, List.length_append, encHeader_length, h1, h2]

/-- The size of a transaction depends on the number of key witnesses only, so the random dummy
witnesses of the code can be any. -/
theorem size_wits (t : Babbage.Tx) (ws : List VkeyWitness) (h : ∀ w ∈ ws, WitnessSized w) (f : Nat) :
    sizeWithFee (withWitnesses t ws) f = sizeWithFee (dummyTx t ws.length) f := by
  rw [sizeWithFee_eq, sizeWithFee_eq]
  have h1 := wits_size ws h
  have h2 := wits_size _ (dummy_sized ws.length)
  rw [List.length_replicate] at h2
  unfold baseSize withWitnesses dummyTx
  dsimp only
  rw [h1, h2]

/-- Fewer key witnesses, smaller transaction. -/
theorem size_fewer (t : Babbage.Tx) (m n : Nat) (hmn : m ≤ n) (f : Nat) :
    sizeWithFee (dummyTx t m) f ≤ sizeWithFee (dummyTx t n) f := by
  rw [sizeWithFee_eq, sizeWithFee_eq]
  have h1 := wits_size _ (dummy_sized m)
  have h2 := wits_size _ (dummy_sized n)
  rw [List.length_replicate] at h1 h2
  unfold baseSize dummyTx
  dsimp only
  rw [h1, h2]
  have := vkeysSize_mono hmn
  have : uintSize ((if m = 0 then 0 else 2) / 2) ≤ uintSize ((if n = 0 then 0 else 2) / 2) := by
    apply uintSize_mono
    apply Nat.div_le_div_right
    split <;> split <;> omega
  omega

/-! ## The iteration -/

theorem feeLoop_fix (t : Babbage.Tx) (a b : Nat) : ∀ k fee r,
    feeLoop t a b k fee (feeFor a b (sizeWithFee t fee)) = some r →
      r.1 = r.2 ∧ feeFor a b (sizeWithFee t r.1) = r.1 := by
  intro k
  induction k with
  | zero => intro fee r h; simp [feeLoop] at h
  | succ k ih =>
    intro fee r h
    rw [feeLoop] at h
    split at h
    · rename_i he
      injection h with h
      subst h
      exact ⟨he.symm, he⟩
    · exact ih _ _ h

theorem feeLoop_up (t : Babbage.Tx) (a b K : Nat) (hK : ∀ f, sizeWithFee t f = K + uintSize f) (hw : NoWrap a b K) :
    ∀ k fee, fee ≤ feeFn a b K fee → 11 ≤ k + uintSize fee →
      ∃ v, feeLoop t a b k fee (feeFn a b K fee) = some (v, v) ∧ fee ≤ v ∧
        ∀ p, fee ≤ p → feeFn a b K p = p → v ≤ p := by
  intro k
  induction k with
  | zero => intro fee _ h; have := uintSize_le fee; omega
  | succ k ih =>
    intro fee hle hk
    rw [feeLoop]
    split
    · rename_i he
      exact ⟨fee, by rw [he], by omega, fun p hp _ => hp⟩
    · rename_i hne
      rw [hK]
      change ∃ v, feeLoop t a b k (feeFn a b K fee) (feeFn a b K (feeFn a b K fee)) = _ ∧ _
      have hle2 := feeFn_mono hw hle
      by_cases hs : uintSize (feeFn a b K fee) = uintSize fee
      · have e : feeFn a b K (feeFn a b K fee) = feeFn a b K fee := feeFn_congr hs
        have hb := uintSize_le fee
        obtain ⟨j, rfl⟩ : ∃ j, k = j + 1 := ⟨k - 1, by omega⟩
        rw [e, feeLoop, if_pos rfl]
        exact ⟨_, rfl, hle, fun p hp hf => by rw [← hf]; exact feeFn_mono hw hp⟩
      · have hm := uintSize_mono hle
        obtain ⟨v, h1, h2, h3⟩ := ih (feeFn a b K fee) hle2 (by omega)
        exact ⟨v, h1, by omega, fun p hp hf => h3 p (by rw [← hf]; exact feeFn_mono hw hp) hf⟩

theorem feeLoop_down (t : Babbage.Tx) (a b K : Nat) (hK : ∀ f, sizeWithFee t f = K + uintSize f) (hw : NoWrap a b K) :
    ∀ k fee, feeFn a b K fee ≤ fee → 1 + uintSize fee ≤ k →
      ∃ v, feeLoop t a b k fee (feeFn a b K fee) = some (v, v) ∧ v ≤ fee := by
  intro k
  induction k with
  | zero => intro fee _ h; omega
  | succ k ih =>
    intro fee hle hk
    rw [feeLoop]
    split
    · rename_i he
      exact ⟨fee, by rw [he], by omega⟩
    · rename_i hne
      rw [hK]
      change ∃ v, feeLoop t a b k (feeFn a b K fee) (feeFn a b K (feeFn a b K fee)) = _ ∧ _
      have hle2 := feeFn_mono hw hle
      by_cases hs : uintSize (feeFn a b K fee) = uintSize fee
      · have e : feeFn a b K (feeFn a b K fee) = feeFn a b K fee := feeFn_congr hs
        have hb := uintSize_pos fee
        obtain ⟨j, rfl⟩ : ∃ j, k = j + 1 := ⟨k - 1, by omega⟩
        rw [e, feeLoop, if_pos rfl]
        exact ⟨_, rfl, hle⟩
      · have hm := uintSize_mono hle
        obtain ⟨v, h1, h2⟩ := ih (feeFn a b K fee) hle2 (by omega)
        exact ⟨v, h1, by omega⟩

/-! ## C77 -/

/-- What `calculateFee` leaves: the fee it returns is in the body, the key witnesses are gone,
nothing else changed. -/
theorem calculateFee_frame (k : Nat) (b b' : Builder) (n f : Nat) (h : calculateFee k b n = some (b', f)) :
    b' = setFee b f ∧ feeFor b.minFeeA b.minFeeB (sizeWithFee (dummyTx b.tx n) f) = f := by
  unfold calculateFee at h
  split at h
  · cases h
  · rename_i fee cf hl
    obtain ⟨h1, h2⟩ := feeLoop_fix _ _ _ _ _ _ hl
    dsimp only at h1 h2
    subst h1
    injection h with h; injection h with h3 h4
    subst h4
    exact ⟨h3.symm, h2⟩

theorem noWrap_of (b : Builder) (ws : List VkeyWitness) (hws : ∀ w ∈ ws, WitnessSized w)
    (hfit : minFee b.minFeeA b.minFeeB (size (withWitnesses b.tx ws) + 8) < 2 ^ 64) :
    NoWrap b.minFeeA b.minFeeB (baseSize (dummyTx b.tx ws.length)) := by
  rw [size_eq, size_wits _ _ hws, sizeWithFee_eq] at hfit
  unfold NoWrap; unfold minFee at hfit
  have := uintSize_pos (withWitnesses b.tx ws).body.fee
  have : b.minFeeA * (baseSize (dummyTx b.tx ws.length) + 9) ≤
      b.minFeeA * (baseSize (dummyTx b.tx ws.length) + uintSize (withWitnesses b.tx ws).body.fee + 8) :=
    Nat.mul_le_mul_left _ (by omega)
  omega

/-- **C77**: whatever the transaction and its current fee, `calculateFee(n)` returns (after at
most 12 rounds) a fee that is exactly the minimum fee of the transaction carrying this fee and
any `n` key witnesses, as long as fees do not overflow 64 bits.  The fee is stored in the
transaction, which loses its key witnesses and is otherwise unchanged. -/
theorem C77_calculateFee (b : Builder) (n k : Nat) (ws : List VkeyWitness) (hn : ws.length = n)
    (hws : ∀ w ∈ ws, WitnessSized w)
    (hfit : minFee b.minFeeA b.minFeeB (size (withWitnesses b.tx ws) + 8) < 2 ^ 64) (hk : 12 ≤ k) :
    ∃ b' f, calculateFee k b n = some (b', f) ∧
      f = minFee b.minFeeA b.minFeeB (size (withFee (withWitnesses b.tx ws) f)) ∧
      b'.tx = withFee (withWitnesses b.tx []) f ∧ b'.changeAddr = b.changeAddr ∧
      b'.minFeeA = b.minFeeA ∧ b'.minFeeB = b.minFeeB := by
  subst hn
  have hw := noWrap_of b ws hws hfit
  have hK := sizeWithFee_eq (dummyTx b.tx ws.length)
  have fin : ∀ v, feeLoop (dummyTx b.tx ws.length) b.minFeeA b.minFeeB k b.tx.body.fee
      (feeFor b.minFeeA b.minFeeB (sizeWithFee (dummyTx b.tx ws.length) b.tx.body.fee)) = some (v, v) →
      ∃ b' f, calculateFee k b ws.length = some (b', f) ∧
      f = minFee b.minFeeA b.minFeeB (size (withFee (withWitnesses b.tx ws) f)) ∧
      b'.tx = withFee (withWitnesses b.tx []) f ∧ b'.changeAddr = b.changeAddr ∧
      b'.minFeeA = b.minFeeA ∧ b'.minFeeB = b.minFeeB := by
    intro v hv
    refine ⟨setFee b v, v, by unfold calculateFee; rw [hv]; rfl, ?_, rfl, rfl, rfl, rfl⟩
    have h2 := (feeLoop_fix _ _ _ _ _ _ hv).2
    dsimp only at h2
    rw [size_withFee, size_wits _ _ hws, hK]
    rw [hK] at h2
    unfold minFee
    rw [← feeFn_eq hw]; exact h2.symm
  rcases Nat.le_total b.tx.body.fee (feeFn b.minFeeA b.minFeeB (baseSize (dummyTx b.tx ws.length)) b.tx.body.fee) with hl | hl
  · obtain ⟨v, h1, -, -⟩ := feeLoop_up _ _ _ _ hK hw k _ hl (by omega)
    exact fin v (by rw [hK]; exact h1)
  · have := uintSize_le b.tx.body.fee
    obtain ⟨v, h1, -⟩ := feeLoop_down _ _ _ _ hK hw k _ hl (by omega)
    exact fin v (by rw [hK]; exact h1)

/-- **C77**: started from a fee not above the fixed part (a new builder has fee 0),
`calculateFee` finds the *least* fee that is the minimum fee of the transaction carrying it. -/
theorem C77_least (b b' : Builder) (n k f : Nat) (ws : List VkeyWitness) (hn : ws.length = n)
    (hws : ∀ w ∈ ws, WitnessSized w) (hk : 12 ≤ k)
    (hfit : minFee b.minFeeA b.minFeeB (size (withWitnesses b.tx ws) + 8) < 2 ^ 64)
    (h0 : b.tx.body.fee ≤ b.minFeeB) (h : calculateFee k b n = some (b', f)) (g : Nat)
    (hg : g = minFee b.minFeeA b.minFeeB (size (withFee (withWitnesses b.tx ws) g))) : f ≤ g := by
  subst hn
  have hw := noWrap_of b ws hws hfit
  have hK := sizeWithFee_eq (dummyTx b.tx ws.length)
  have hl : b.tx.body.fee ≤ feeFn b.minFeeA b.minFeeB (baseSize (dummyTx b.tx ws.length)) b.tx.body.fee := by
    rw [feeFn_eq hw]; omega
  obtain ⟨v, h1, -, h3⟩ := feeLoop_up _ _ _ _ hK hw k _ hl (by have := uintSize_pos b.tx.body.fee; omega)
  have h2 : feeLoop (dummyTx b.tx ws.length) b.minFeeA b.minFeeB k b.tx.body.fee
      (feeFor b.minFeeA b.minFeeB (sizeWithFee (dummyTx b.tx ws.length) b.tx.body.fee)) = some (v, v) := by
    rw [hK]; exact h1
  unfold calculateFee at h
  rw [h2] at h
  injection h with h; injection h with _ h
  subst h
  rw [size_withFee, size_wits _ _ hws, hK] at hg
  refine h3 g ?_ ?_
  · unfold minFee at hg; omega
  · rw [feeFn_eq hw]; exact hg.symm

/-- **C77**: a transaction that is given at most `n` key witnesses after `calculateFee(n)` pays
at least the minimum fee of its actual size. -/
theorem C77_pays (k : Nat) (b b' : Builder) (n f : Nat) (h : calculateFee k b n = some (b', f))
    (ws : List VkeyWitness) (hn : ws.length ≤ n) (hws : ∀ w ∈ ws, WitnessSized w)
    (hfit : ∀ ds : List VkeyWitness, ds.length = n → (∀ d ∈ ds, WitnessSized d) →
      minFee b.minFeeA b.minFeeB (size (withWitnesses b.tx ds) + 8) < 2 ^ 64) :
    minFee b.minFeeA b.minFeeB (size (withWitnesses b'.tx ws)) ≤ b'.tx.body.fee := by
  obtain ⟨rfl, hf⟩ := calculateFee_frame k b b' n f h
  have hw := noWrap_of b (List.replicate n ⟨List.replicate 32 0, List.replicate 64 0⟩) (dummy_sized n)
    (hfit _ (by simp) (dummy_sized n))
  rw [List.length_replicate] at hw
  have h1 : size (withWitnesses (setFee b f).tx ws) = sizeWithFee (dummyTx b.tx ws.length) f := by
    rw [size_eq, size_wits _ _ hws]; rfl
  have h2 := size_fewer b.tx ws.length n hn f
  rw [h1]
  show _ ≤ f
  rw [sizeWithFee_eq (dummyTx b.tx n)] at hf h2
  have h3 := feeFn_eq hw f
  unfold feeFn at h3
  rw [hf] at h3
  unfold minFee
  have : b.minFeeA * sizeWithFee (dummyTx b.tx ws.length) f ≤ b.minFeeA * (baseSize (dummyTx b.tx n) + uintSize f) :=
    Nat.mul_le_mul_left _ h2
  omega

/-! ## Where C77 fails -/

/-- An empty transaction takes 10 bytes and its fee. -/
theorem empty_size (f g : Nat) : sizeWithFee (dummyTx { body := { fee := g } } 0) f = 10 + uintSize f := by
  rw [sizeWithFee_eq]
  show baseSize (dummyTx {} 0) + _ = _
  rw [show baseSize (dummyTx {} 0) = 10 by decide +kernel]

/-- **C77** fails without the overflow condition: with coefficients 2^64 - 1 and 35, which the
setters accept, `calculateFee` on a new builder never returns — the calculated fee alternates
between 23 and 24. -/
theorem C77_overflow_diverges (k : Nat) : calculateFee k { minFeeA := 2 ^ 64 - 1, minFeeB := 35 } 0 = none := by
  have loop : ∀ k, feeLoop (dummyTx {} 0) (2 ^ 64 - 1) 35 k 23 24 = none ∧
      feeLoop (dummyTx {} 0) (2 ^ 64 - 1) 35 k 24 23 = none := by
    intro k
    induction k with
    | zero => exact ⟨rfl, rfl⟩
    | succ k ih =>
      constructor
      · rw [feeLoop, if_neg (by decide), show dummyTx {} 0 = dummyTx { body := { fee := 0 } } 0 from rfl, empty_size]
        exact ih.2
      · rw [feeLoop, if_neg (by decide), show dummyTx {} 0 = dummyTx { body := { fee := 0 } } 0 from rfl, empty_size]
        exact ih.1
  unfold calculateFee
  dsimp only
  have : feeLoop (dummyTx {} 0) (2 ^ 64 - 1) 35 k 0 (feeFor (2 ^ 64 - 1) 35 (sizeWithFee (dummyTx {} 0) 0)) = none := by
    rw [show dummyTx {} 0 = dummyTx { body := { fee := 0 } } 0 from rfl, empty_size,
      show feeFor (2 ^ 64 - 1) 35 (10 + uintSize 0) = 24 by decide +kernel]
    cases k with
    | zero => rfl
    | succ k =>
      rw [feeLoop, if_neg (by decide), empty_size]
      exact (loop k).2
  rw [this]

/-- **C77**: the result is not always the least one: it depends on the fee already set.  With a
fixed part of 64900 an empty transaction has two self-consistent fees. -/
theorem C77_depends_on_fee :
    ((calculateFee 12 { minFeeB := 64900, tx := { body := { fee := 0 } } } 0).map (·.2)) = some 65472 ∧
    ((calculateFee 12 { minFeeB := 64900, tx := { body := { fee := 100000 } } } 0).map (·.2)) = some 65560 := by
  decide +kernel

/-- A payment: one input, one output, not signed. -/
def sample : Builder :=
  { tx := { body := { inputs := [⟨List.replicate 32 7, 1⟩], outputs := [.post ⟨List.replicate 57 1, 2000000, none⟩], ttl := some 5000 } } }

/-- The hypotheses of `C77_calculateFee` are met by it, and its fee is computed. -/
example : minFee sample.minFeeA sample.minFeeB (size (withWitnesses sample.tx
      [⟨List.replicate 32 1, List.replicate 64 2⟩]) + 8) < 2 ^ 64 ∧
    WitnessSized ⟨List.replicate 32 1, List.replicate 64 2⟩ ∧
    ((calculateFee 12 sample 1).map (·.2)) = some 165281 := by
  refine ⟨by decide +kernel, by simp [WitnessSized], by decide +kernel⟩

end Cardano.BabbageBuilder
