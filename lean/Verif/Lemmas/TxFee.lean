import Verif.Model.TxBuilder
import Verif.Spec.TxBuilder
import Verif.Lemmas.Util

/-! # Transaction sizes and the fee iteration -/

namespace Cardano.TxBuilder

open Cardano Cardano.Ledger Cardano.Cbor Cardano.Spec.TxBuilder

theorem encHeader_length (m n : Nat) : (encHeader m n).length = uintSize n := by
  unfold encHeader uintSize
  split <;> [skip; split <;> [skip; split <;> [skip; split]]] <;> simp [Util.packBE_length]

theorem encList_append (l m : List Item) : encList (l ++ m) = encList l ++ encList m := by
  induction l with
  | nil => simp [encList]
  | cons a l ih => simp [encList, ih, List.append_assoc]

theorem uintSize_mono {m n : Nat} (h : m ≤ n) : uintSize m ≤ uintSize n := by
  unfold uintSize; split <;> split <;> try omega
  all_goals (repeat' split) <;> omega

theorem uintSize_le (n : Nat) : uintSize n ≤ 9 := by
  unfold uintSize; (repeat' split) <;> omega

theorem uintSize_pos (n : Nat) : 1 ≤ uintSize n := by
  unfold uintSize; (repeat' split) <;> omega

theorem map_fee_length (A B : List Item) (f : Nat) :
    (enc (.map (A ++ .uint f :: B))).length =
      uintSize ((A.length + 1 + B.length) / 2) + (encList A).length + (encList B).length + uintSize f := by
  simp only [enc, encList_append, encList, List.length_append, encHeader_length, List.length_cons]
  rw [show A.length + (B.length + 1) = A.length + 1 + B.length by omega]
  omega

/-- The body's items before and after the fee. -/
def itemsA (t : TxBody) : List Item :=
  [.uint 0, .array (t.inputs.map fun i => .array i.ser), .uint 1, .array (t.outputs.map fun o => .array o.ser), .uint 2]
def itemsB (t : TxBody) (cs : List Item) : List Item :=
  .uint 3 :: .uint t.ttl :: (cs ++ withdrawalsEntry t.withdrawals ++ metadataEntry t.metadataHash)

/-- The size of a transaction apart from the fee. -/
def baseSize (t : Tx) (cs : List Item) : Nat :=
  1 + uintSize (((itemsA t.body).length + 1 + (itemsB t.body cs).length) / 2) + (encList (itemsA t.body)).length
    + (encList (itemsB t.body cs)).length + (enc (.map t.wits.ser)).length + (if t.metadata then 0 else 1)

theorem ser_length (t : Tx) (cs : List Item) (hc : certsEntry t.body.certificates = .ok cs) (f : Nat) :
    sizeWithFee t f = .ok (baseSize t cs + uintSize f) := by
  have hb : TxBody.ser { t.body with fee := f } = .ok (itemsA t.body ++ .uint f :: itemsB t.body cs) := by
    unfold TxBody.ser
    dsimp only
    rw [hc, Out.ok_bind]
    simp [itemsA, itemsB]
  unfold sizeWithFee Tx.serialize Tx.ser
  dsimp only
  rw [hb, Out.ok_bind, Out.ok_bind, Out.ok_bind]
  congr 1
  have := map_fee_length (itemsA t.body) (itemsB t.body cs) f
  unfold encArray baseSize
  cases t.metadata with
  | true =>
    simp only [if_true, List.append_nil]
    rw [enc]
    simp only [encList, List.length_append, List.length_cons, List.length_nil, this]
    rw [encHeader_length, show uintSize (0 + 1 + 1) = 1 from rfl]
    omega
  | false =>
    simp only [Bool.false_eq_true, if_false, List.cons_append, List.nil_append]
    rw [enc]
    simp only [encList, List.length_append, List.length_cons, List.length_nil, this]
    rw [encHeader_length, show uintSize (0 + 1 + 1 + 1) = 1 from rfl, show (enc Item.null).length = 1 from rfl]
    omega

/-- The size of a transaction depends on the fee only through the fee's own encoding. -/
theorem size_fee (t : Tx) :
    (∃ K, ∀ f, sizeWithFee t f = .ok (K + uintSize f)) ∨ (∃ e, ∀ f, sizeWithFee t f = .throw e) ∨
      (∀ f, sizeWithFee t f = .ub) := by
  cases hc : certsEntry t.body.certificates with
  | ok cs => exact Or.inl ⟨_, ser_length t cs hc⟩
  | throw e =>
    refine Or.inr (Or.inl ⟨e, fun f => ?_⟩)
    unfold sizeWithFee Tx.serialize Tx.ser TxBody.ser
    dsimp only; rw [hc]; rfl
  | ub =>
    refine Or.inr (Or.inr fun f => ?_)
    unfold sizeWithFee Tx.serialize Tx.ser TxBody.ser
    dsimp only; rw [hc]; rfl

/-- The fee function of a transaction whose size is `K` plus that of the fee. -/
def feeFn (a b K f : Nat) : Nat := feeFor a b (K + uintSize f)

/-- No 64-bit overflow in the fee of this transaction, whatever the fee's size. -/
def NoWrap (a b K : Nat) : Prop := a * (K + 9) + b < 2 ^ 64

theorem feeFn_eq {a b K : Nat} (h : NoWrap a b K) (f : Nat) : feeFn a b K f = a * (K + uintSize f) + b := by
  unfold feeFn feeFor
  refine Nat.mod_eq_of_lt (Nat.lt_of_le_of_lt ?_ h)
  have := uintSize_le f
  have : a * (K + uintSize f) ≤ a * (K + 9) := Nat.mul_le_mul_left _ (by omega)
  omega

theorem feeFn_mono {a b K : Nat} (h : NoWrap a b K) {f g : Nat} (hfg : f ≤ g) : feeFn a b K f ≤ feeFn a b K g := by
  rw [feeFn_eq h, feeFn_eq h]
  have : a * (K + uintSize f) ≤ a * (K + uintSize g) :=
    Nat.mul_le_mul_left _ (by have := uintSize_mono hfg; omega)
  omega

theorem feeFn_congr {a b K f g : Nat} (h : uintSize f = uintSize g) : feeFn a b K f = feeFn a b K g := by
  unfold feeFn; rw [h]

/-- Whatever the loop returns is a fixed point. -/
theorem feeLoop_fix (t : Tx) (a b K : Nat) (hK : ∀ f, sizeWithFee t f = .ok (K + uintSize f)) :
    ∀ k fee r, feeLoop t a b k fee (feeFn a b K fee) = some r → ∃ v, r = .ok v ∧ feeFn a b K v = v := by
  intro k
  induction k with
  | zero => intro fee r h; simp [feeLoop] at h
  | succ k ih =>
    intro fee r h
    rw [feeLoop] at h
    split at h
    · rename_i he
      injection h with h
      exact ⟨_, h.symm, by rw [he, he]⟩
    · rw [hK] at h
      exact ih _ _ h

theorem feeLoop_up (t : Tx) (a b K : Nat) (hK : ∀ f, sizeWithFee t f = .ok (K + uintSize f)) (hw : NoWrap a b K) :
    ∀ k fee, fee ≤ feeFn a b K fee → 11 ≤ k + uintSize fee →
      ∃ v, feeLoop t a b k fee (feeFn a b K fee) = some (.ok v) ∧ fee ≤ v ∧
        ∀ p, fee ≤ p → feeFn a b K p = p → v ≤ p := by
  intro k
  induction k with
  | zero => intro fee _ h; have := uintSize_le fee; omega
  | succ k ih =>
    intro fee hle hk
    rw [feeLoop]
    split
    · rename_i he
      exact ⟨_, rfl, by omega, fun p hp _ => by rw [he]; exact hp⟩
    · rename_i hne
      rw [hK]
      change ∃ v, feeLoop t a b k (feeFn a b K fee) (feeFn a b K (feeFn a b K fee)) = _ ∧ _
      have hle2 := feeFn_mono hw hle
      by_cases hs : uintSize (feeFn a b K fee) = uintSize fee
      · have e : feeFn a b K (feeFn a b K fee) = feeFn a b K fee := feeFn_congr hs
        have hb := uintSize_le fee
        obtain ⟨j, rfl⟩ : ∃ j, k = j + 1 := ⟨k - 1, by omega⟩
        rw [e, feeLoop, if_pos rfl]
        exact ⟨_, rfl, hle, fun p hp hf => by rw [← hf]; exact feeFn_mono hw hp⟩
      · have hm := uintSize_mono hle
        obtain ⟨v, h1, h2, h3⟩ := ih (feeFn a b K fee) hle2 (by omega)
        exact ⟨v, h1, by omega, fun p hp hf => h3 p (by rw [← hf]; exact feeFn_mono hw hp) hf⟩

theorem feeLoop_down (t : Tx) (a b K : Nat) (hK : ∀ f, sizeWithFee t f = .ok (K + uintSize f)) (hw : NoWrap a b K) :
    ∀ k fee, feeFn a b K fee ≤ fee → 1 + uintSize fee ≤ k →
      ∃ v, feeLoop t a b k fee (feeFn a b K fee) = some (.ok v) ∧ v ≤ fee ∧
        ∀ p, p ≤ fee → feeFn a b K p = p → p ≤ v := by
  intro k
  induction k with
  | zero => intro fee _ h; omega
  | succ k ih =>
    intro fee hle hk
    rw [feeLoop]
    split
    · rename_i he
      exact ⟨_, rfl, by omega, fun p hp _ => by rw [he]; exact hp⟩
    · rename_i hne
      rw [hK]
      change ∃ v, feeLoop t a b k (feeFn a b K fee) (feeFn a b K (feeFn a b K fee)) = _ ∧ _
      have hle2 := feeFn_mono hw hle
      by_cases hs : uintSize (feeFn a b K fee) = uintSize fee
      · have e : feeFn a b K (feeFn a b K fee) = feeFn a b K fee := feeFn_congr hs
        have hb := uintSize_pos fee
        obtain ⟨j, rfl⟩ : ∃ j, k = j + 1 := ⟨k - 1, by omega⟩
        rw [e, feeLoop, if_pos rfl]
        exact ⟨_, rfl, hle, fun p hp hf => by rw [← hf]; exact feeFn_mono hw hp⟩
      · have hm := uintSize_mono hle
        obtain ⟨v, h1, h2, h3⟩ := ih (feeFn a b K fee) hle2 (by omega)
        exact ⟨v, h1, by omega, fun p hp hf => h3 p (by rw [← hf]; exact feeFn_mono hw hp) hf⟩

end Cardano.TxBuilder
