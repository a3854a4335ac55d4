import Verif.Props.TxBalance

/-! # C67: forced balancing succeeds when the funds suffice

`src/shelley/transaction.cpp:227-313`. -/

namespace Cardano.TxBuilder

open Cardano Cardano.Ledger Cardano.Cbor Cardano.Address Cardano.Spec.TxBuilder Cardano.Spec.Ledger

theorem sumOutputs_eq (l : List TxOut) : ∀ acc : Nat, (∀ o ∈ l, o.amount < 2 ^ 63) → acc + outputSum l < 2 ^ 63 →
    sumOutputs l acc = .ok ((acc + outputSum l : Nat) : Int) := by
  induction l with
  | nil => intro acc _ _; simp [sumOutputs, outputSum]
  | cons o l ih =>
    intro acc ho h
    have e : outputSum (o :: l) = o.amount + outputSum l := by simp [outputSum]
    rw [e] at h
    rw [sumOutputs, i64_small (ho o (by simp)), addI64, if_pos (by omega), Out.ok_bind]
    have := ih (acc + o.amount) (fun o ho' => ho o (by simp [ho'])) (by omega)
    rw [show ((acc : Int) + (o.amount : Int)) = ((acc + o.amount : Nat) : Int) from by omega, this, e]
    congr 1
    omega

theorem change_eq (b : Builder) (d : Nat) (hd : b.depositTotal = d) (ho : ∀ o ∈ b.tx.body.outputs, o.amount < 2 ^ 63)
    (hlt : d + b.tx.body.fee + outputSum b.tx.body.outputs < 2 ^ 63) (h0 : 0 ≤ b.inputTotal) (h1 : b.inputTotal < 2 ^ 63) :
    change b = .ok (b.inputTotal - (d + b.tx.body.fee + outputSum b.tx.body.outputs : Nat)) := by
  unfold change totalOutgoing
  rw [hd, i64_small (show b.tx.body.fee < 2 ^ 63 by omega), addI64, if_pos (by omega), Out.ok_bind]
  rw [show ((d : Int) + (b.tx.body.fee : Int)) = ((d + b.tx.body.fee : Nat) : Int) from by omega,
    sumOutputs_eq _ _ ho hlt, Out.ok_bind, addI64, if_pos (by omega)]
  congr 1

/-- The size, apart from the fee, of the transaction with other outputs. -/
def G (b : Builder) (n : Nat) (cs : List Item) (outs : List TxOut) : Nat := baseSize (dummyTx (setOutputs b outs).tx n) cs

theorem size_G (b : Builder) (n : Nat) (cs : List Item) (hc : certsEntry b.tx.body.certificates = .ok cs) (outs : List TxOut)
    (f : Nat) : sizeWithFee (dummyTx (setOutputs b outs).tx n) f = .ok (G b n cs outs + uintSize f) :=
  ser_length (dummyTx (setOutputs b outs).tx n) cs hc f

theorem out_length (o : TxOut) :
    (enc (.array o.ser)).length = 1 + (uintSize o.address.length + o.address.length) + uintSize o.amount := by
  simp only [TxOut.ser, enc, encList, List.length_append, List.length_cons, List.length_nil, encHeader_length,
    show uintSize (0 + 1 + 1) = 1 from rfl]
  omega

theorem G_append (b : Builder) (n : Nat) (cs : List Item) (outs : List TxOut) (o : TxOut) :
    G b n cs (outs ++ [o]) + uintSize outs.length = G b n cs outs + uintSize (outs.length + 1) +
      (1 + (uintSize o.address.length + o.address.length) + uintSize o.amount) := by
  have h := out_length o
  have hA : ∀ outs : List TxOut, (encList (itemsA (dummyTx (setOutputs b outs).tx n).body)).length =
      (enc (.uint 0)).length + (enc (.array (b.tx.body.inputs.map fun i => .array i.ser))).length + (enc (.uint 1)).length
        + (uintSize outs.length + (encList (outs.map fun o => Item.array o.ser)).length) + (enc (.uint 2)).length := by
    intro outs
    have : (enc (.array (outs.map fun o => Item.array o.ser))).length =
        uintSize outs.length + (encList (outs.map fun o => Item.array o.ser)).length := by
      rw [enc, List.length_append, encHeader_length, List.length_map]
    rw [← this]
    simp only [itemsA, dummyTx, setOutputs, setBody, encList, List.length_append, List.length_nil]
    omega
  have hA2 : (encList ((outs ++ [o]).map fun o => Item.array o.ser)).length =
      (encList (outs.map fun o => Item.array o.ser)).length + (enc (.array o.ser)).length := by
    simp [encList_append, encList]
  have key : ∀ outs : List TxOut, G b n cs outs = 1 + uintSize ((5 + 1 + (itemsB b.tx.body cs).length) / 2)
      + ((enc (.uint 0)).length + (enc (.array (b.tx.body.inputs.map fun i => .array i.ser))).length + (enc (.uint 1)).length
        + (uintSize outs.length + (encList (outs.map fun o => Item.array o.ser)).length) + (enc (.uint 2)).length)
      + (encList (itemsB b.tx.body cs)).length
      + (enc (.map (WitnessSet.ser (dummyTx b.tx n).wits))).length + (if b.tx.metadata then 0 else 1) := by
    intro outs
    rw [← hA outs]
    rfl
  rw [key, key, hA2, h, List.length_append, List.length_singleton]
  omega

theorem G_le (b : Builder) (n : Nat) (cs : List Item) (outs : List TxOut) (o : TxOut) :
    G b n cs outs ≤ G b n cs (outs ++ [o]) := by
  have := G_append b n cs outs o
  have := uintSize_mono (show outs.length ≤ outs.length + 1 by omega)
  omega

theorem G_mono (b : Builder) (n : Nat) (cs : List Item) (outs : List TxOut) (a : Bytes) {x y : Nat} (h : x ≤ y) :
    G b n cs (outs ++ [⟨a, x⟩]) ≤ G b n cs (outs ++ [⟨a, y⟩]) := by
  have h1 := G_append b n cs outs ⟨a, x⟩
  have h2 := G_append b n cs outs ⟨a, y⟩
  have := uintSize_mono h
  dsimp only at h1 h2
  omega

/-- The fee of the transaction with the given outputs. -/
def F (b : Builder) (n : Nat) (cs : List Item) (outs : List TxOut) : Nat :=
  b.minFeeA.toNat * (G b n cs outs + 5) + b.minFeeB.toNat

theorem F_le (b : Builder) (n : Nat) (cs : List Item) {l m : List TxOut} (h : G b n cs l ≤ G b n cs m) :
    F b n cs l ≤ F b n cs m := by
  unfold F
  have : b.minFeeA.toNat * (G b n cs l + 5) ≤ b.minFeeA.toNat * (G b n cs m + 5) := Nat.mul_le_mul_left _ (by omega)
  omega

theorem five {x : Nat} (h1 : 2 ^ 16 ≤ x) (h2 : x < 2 ^ 32) : uintSize x = 5 := by
  unfold uintSize; (repeat' split) <;> omega

/-- The fee parameters are those of a network, and the fees below 2^31. -/
structure FeeOk (b : Builder) (n : Nat) (cs : List Item) (outs : List TxOut) : Prop where
  a : 0 ≤ b.minFeeA
  b16 : 2 ^ 16 ≤ b.minFeeB
  fit : b.minFeeA.toNat * (G b n cs outs + 13) + b.minFeeB.toNat < 2 ^ 31
  a64 : b.minFeeA < 2 ^ 63

theorem FeeOk.F_lt {b : Builder} {n : Nat} {cs : List Item} {outs : List TxOut} (h : FeeOk b n cs outs) :
    F b n cs outs < 2 ^ 31 := by
  have := h.fit
  unfold F
  have : b.minFeeA.toNat * (G b n cs outs + 5) ≤ b.minFeeA.toNat * (G b n cs outs + 13) := Nat.mul_le_mul_left _ (by omega)
  omega

theorem FeeOk.le_F {b : Builder} {n : Nat} {cs : List Item} {outs : List TxOut} (h : FeeOk b n cs outs) :
    2 ^ 16 ≤ F b n cs outs := by
  have := h.b16
  unfold F
  omega

theorem upd (k n : Nat) (b : Builder) (cs : List Item) (hc : certsEntry b.tx.body.certificates = .ok cs)
    (outs : List TxOut) (h : FeeOk b n cs outs) (hk : 12 ≤ k) :
    updateFee k (setOutputs b outs) n = some (setFee (setOutputs b outs) (F b n cs outs), .ok ()) := by
  have hs := size_G b n cs hc outs
  have hlen : (List.replicate n (⟨List.replicate 32 0, List.replicate 64 0⟩ : VkeyWitness)).length = n := List.length_replicate ..
  have fit := h.fit
  have hb := h.b16
  have ha := h.a
  have h5 : uintSize b.tx.body.fee ≤ 9 := uintSize_le _
  have hu0 : updateFee k (setOutputs b outs) n = updateFee k (setFee (setOutputs b outs) 0) n :=
    updateFee_congr k n _ _ rfl
  obtain ⟨b', h1, ⟨s', h2, h3⟩, -⟩ := C54_updateFee (setFee (setOutputs b outs) 0) n k (G b n cs outs + 1) _ hlen (dummy_sized n)
    (by
      rw [txSize_iff']
      exact hs 0) h.a (by show 0 ≤ b.minFeeB; omega)
    (by
      show minFee b.minFeeA.toNat b.minFeeB.toNat _ < _
      unfold minFee
      have : b.minFeeA.toNat * (G b n cs outs + 1 + 8) ≤ b.minFeeA.toNat * (G b n cs outs + 13) := Nat.mul_le_mul_left _ (by omega)
      omega) h.a64 hk
  obtain ⟨f, rfl⟩ := updateFee_frame _ _ _ _ _ h1
  rw [hu0, h1]
  rw [txSize_iff'] at h2
  have h4 : sizeWithFee (dummyTx (setOutputs b outs).tx n) f = .ok s' := h2
  rw [hs] at h4
  injection h4 with h4
  change f = minFee b.minFeeA.toNat b.minFeeB.toNat s' at h3
  unfold minFee at h3
  have : b.minFeeA.toNat * s' ≤ b.minFeeA.toNat * (G b n cs outs + 13) := by
    apply Nat.mul_le_mul_left
    have := uintSize_le f
    omega
  have hf5 : uintSize f = 5 := five (by omega) (by omega)
  rw [hf5] at h4
  have : f = F b n cs outs := by rw [h3, ← h4]; rfl
  rw [this]; rfl

/-- Wasting the change as fee succeeds. -/
theorem force_ok (k n : Nat) (b : Builder) (cs : List Item) (hc : certsEntry b.tx.body.certificates = .ok cs)
    (outs : List TxOut) (h : FeeOk b n cs outs) (hk : 12 ≤ k) (c : Int) (hc0 : 0 < c)
    (hlt : F b n cs outs + c < 2 ^ 32) :
    ∃ b', forceFee k n (setFee (setOutputs b outs) (F b n cs outs)) c = some (.stop b' (.ok ())) := by
  have hs := size_G b n cs hc outs
  have e1 : u64 c = c.toNat := u64_of_nonneg (by omega) (by omega)
  have hF := h.le_F
  have hFl := h.F_lt
  have e2 : (F b n cs outs + u64 c) % 2 ^ 64 = F b n cs outs + c.toNat := by
    rw [e1]; exact Nat.mod_eq_of_lt (by omega)
  have hfit := h.fit
  have hA := h.a
  have hB := h.b16
  have eA : u64 b.minFeeA = b.minFeeA.toNat := u64_of_nonneg h.a (by have := h.a64; omega)
  have eB : u64 b.minFeeB = b.minFeeB.toNat := u64_of_nonneg (by omega) (by omega)
  have hfn : ∀ f, 2 ^ 16 ≤ f → f < 2 ^ 32 → feeFn b.minFeeA.toNat b.minFeeB.toNat (G b n cs outs) f = F b n cs outs := by
    intro f h1 h2
    unfold feeFn feeFor
    rw [five h1 h2]
    exact Nat.mod_eq_of_lt (by unfold F at hFl; omega)
  have calcEq : calculateFee k (setFee (setOutputs b outs) (F b n cs outs + c.toNat)) n = some (.ok (F b n cs outs)) := by
    rw [calculateFee_eq _ n (G b n cs outs) k (by intro f; exact hs f)]
    show feeLoop _ (u64 b.minFeeA) (u64 b.minFeeB) _ _ (feeFn (u64 b.minFeeA) (u64 b.minFeeB) _ (F b n cs outs + c.toNat)) = _
    rw [eA, eB, hfn (F b n cs outs + c.toNat) (by omega) (by omega)]
    obtain ⟨j, rfl⟩ : ∃ j, k = j + 2 := ⟨k - 2, by omega⟩
    rw [feeLoop, if_neg (by show ¬ F b n cs outs = F b n cs outs + c.toNat; omega)]
    rw [show sizeWithFee (dummyTx (setFee (setOutputs b outs) (F b n cs outs + c.toNat)).tx n) (F b n cs outs) = _ from hs _]
    show feeLoop _ _ _ _ _ (feeFn b.minFeeA.toNat b.minFeeB.toNat (G b n cs outs) (F b n cs outs)) = _
    rw [hfn (F b n cs outs) (by omega) (by omega), feeLoop, if_pos rfl]
  unfold forceFee
  dsimp only
  have e3 : setBody (setFee (setOutputs b outs) (F b n cs outs)) (fun t => { t with fee := (t.fee + u64 c) % 2 ^ 64 }) =
      setFee (setOutputs b outs) (F b n cs outs + c.toNat) := by
    unfold setFee setBody clearWitnessSet
    dsimp only
    rw [e2]
  rw [e3, calcEq]
  dsimp only
  rw [if_neg (by show ¬ F b n cs outs + c.toNat < F b n cs outs; omega)]
  exact ⟨_, rfl⟩

/-- The rounds of the loop, once `updateFee` has succeeded. -/
theorem round (k n r : Nat) (first : Bool) (b b1 : Builder) (hu : updateFee k b n = some (b1, .ok ())) :
    balanceLoop k n true (r + 1) first b = match balanceStep k n true first b1 with
      | none => none
      | some (.stop b o) => some (b, o)
      | some (.again b) => balanceLoop k n true r false b := by
  rw [balanceLoop, hu]
  rfl

/-- The change with given outputs and fee. -/
theorem change_eq' (b : Builder) (outs : List TxOut) (f d : Nat) (hd : b.depositTotal = d)
    (ho : ∀ o ∈ outs, o.amount < 2 ^ 63) (hlt : d + f + outputSum outs < 2 ^ 63) (h0 : 0 ≤ b.inputTotal)
    (h1 : b.inputTotal < 2 ^ 63) :
    change (setFee (setOutputs b outs) f) = .ok (b.inputTotal - (d + f + outputSum outs : Nat)) :=
  change_eq (setFee (setOutputs b outs) f) d hd ho hlt h0 h1

/-- A round that ends the loop: the change is zero, or positive and wasted. -/
theorem last_round (k n r : Nat) (first : Bool) (b : Builder) (cs : List Item)
    (hc : certsEntry b.tx.body.certificates = .ok cs)
    (outs : List TxOut) (h : FeeOk b n cs outs) (hk : 12 ≤ k) (d : Nat) (hd : b.depositTotal = d)
    (ho : ∀ o ∈ outs, o.amount < 2 ^ 63) (h0 : 0 ≤ b.inputTotal) (h1 : b.inputTotal < 2 ^ 62)
    (hle : (d + F b n cs outs + outputSum outs : Nat) ≤ b.inputTotal)
    (hwaste : b.inputTotal - (d + outputSum outs : Nat) < 2 ^ 32)
    (hfirst : first = true → b.inputTotal - (d + F b n cs outs + outputSum outs : Nat) ≤ minUtxo) :
    ∃ b', balanceLoop k n true (r + 1) first (setOutputs b outs) = some (b', .ok ()) := by
  rw [round k n r first _ _ (upd k n b cs hc outs h hk)]
  have hch := change_eq' b outs (F b n cs outs) d hd ho (by omega) h0 (by omega)
  suffices hs : ∃ b', balanceStep k n true first (setFee (setOutputs b outs) (F b n cs outs)) = some (.stop b' (.ok ())) by
    obtain ⟨b', hs⟩ := hs
    exact ⟨b', by rw [hs]⟩
  unfold balanceStep
  rw [hch]
  dsimp only
  split
  · exact ⟨_, rfl⟩
  · rename_i hne
    rw [if_neg (by omega), onPositive, if_neg (by rintro ⟨ht, hm⟩; have := hfirst ht; omega), if_pos rfl]
    exact force_ok k n b cs hc outs h hk _ (by omega) (by omega)

theorem balanceLoop_congr (k n r : Nat) (force first : Bool) (b b' : Builder) (h : setFee b 0 = setFee b' 0) :
    balanceLoop k n force (r + 1) first b = balanceLoop k n force (r + 1) first b' := by
  rw [balanceLoop, balanceLoop, updateFee_congr k n b b' h]

theorem restart (k n r : Nat) (force first : Bool) (b : Builder) (f : Nat) (l : List TxOut) :
    balanceLoop k n force (r + 1) first (setOutputs (setFee b f) l) =
      balanceLoop k n force (r + 1) first (setOutputs b l) := balanceLoop_congr k n r force first _ _ rfl

theorem restart' (k n r : Nat) (force first : Bool) (b : Builder) (f : Nat) (l m : List TxOut) :
    balanceLoop k n force (r + 1) first (setOutputs (setFee (setOutputs b m) f) l) =
      balanceLoop k n force (r + 1) first (setOutputs b l) := balanceLoop_congr k n r force first _ _ rfl

theorem outputSum_append (l : List TxOut) (o : TxOut) : outputSum (l ++ [o]) = outputSum l + o.amount := by
  simp [outputSum]

/-- Round two and three, after the change output was added. -/
theorem change_rounds (k n r : Nat) (b : Builder) (cs : List Item) (hc : certsEntry b.tx.body.certificates = .ok cs)
    (outs : List TxOut) (addr : Bytes) (hk : 12 ≤ k) (d : Nat) (hd : b.depositTotal = d)
    (ha : 0 ≤ b.minFeeA) (hb : 2 ^ 16 ≤ b.minFeeB) (ha64 : b.minFeeA < 2 ^ 63)
    (hfit : ∀ x, x < 2 ^ 63 → b.minFeeA.toNat * (G b n cs (outs ++ [⟨addr, x⟩]) + 13) + b.minFeeB.toNat < 2 ^ 31)
    (ho : ∀ o ∈ outs, o.amount < 2 ^ 63) (h1 : b.inputTotal < 2 ^ 62) (c : Nat) (hm : minUtxo < c)
    (hcc : b.inputTotal = (d + F b n cs outs + outputSum outs + c : Nat)) :
    ∃ b', balanceLoop k n true (r + 2) false (setOutputs b (outs ++ [⟨addr, c⟩])) = some (b', .ok ()) := by
  have hG : ∀ x, G b n cs outs ≤ G b n cs (outs ++ [⟨addr, x⟩]) := fun x => G_le b n cs outs ⟨addr, x⟩
  have ok2 : ∀ x, x < 2 ^ 63 → FeeOk b n cs (outs ++ [⟨addr, x⟩]) := fun x hx => ⟨ha, hb, hfit x hx, ha64⟩
  have ok1 : FeeOk b n cs outs := by
    refine ⟨ha, hb, ?_, ha64⟩
    have h3 := hfit 0 (by omega)
    have : b.minFeeA.toNat * (G b n cs outs + 13) ≤ b.minFeeA.toNat * (G b n cs (outs ++ [⟨addr, 0⟩]) + 13) :=
      Nat.mul_le_mul_left _ (by have := hG 0; omega)
    omega
  have ho2 : ∀ x, x < 2 ^ 63 → ∀ o ∈ outs ++ [(⟨addr, x⟩ : TxOut)], o.amount < 2 ^ 63 := by
    intro x hx o hm
    rcases List.mem_append.mp hm with hm | hm
    · exact ho o hm
    · rw [List.mem_singleton] at hm; subst hm; exact hx
  have hs2 : ∀ x, outputSum (outs ++ [⟨addr, x⟩]) = outputSum outs + x := fun x => outputSum_append outs ⟨addr, x⟩
  unfold minUtxo at hm
  have hc63 : c < 2 ^ 62 := by omega
  have F12 : F b n cs outs ≤ F b n cs (outs ++ [⟨addr, c⟩]) := F_le b n cs (hG c)
  have F2l := (ok2 c (by omega)).F_lt
  rcases Nat.lt_or_ge (F b n cs outs) (F b n cs (outs ++ [⟨addr, c⟩])) with hlt | hge
  · -- the change output is too large by the fee it adds
    rw [round k n (r + 1) false _ _ (upd k n b cs hc _ (ok2 c (by omega)) hk)]
    have hch := change_eq' b (outs ++ [⟨addr, c⟩]) (F b n cs (outs ++ [⟨addr, c⟩])) d hd (ho2 c (by omega))
      (by rw [hs2]; omega) (by omega) (by omega)
    rw [hs2] at hch
    have hstep : balanceStep k n true false (setFee (setOutputs b (outs ++ [⟨addr, c⟩])) (F b n cs (outs ++ [⟨addr, c⟩]))) =
        some (.again (setOutputs (setFee (setOutputs b (outs ++ [⟨addr, c⟩])) (F b n cs (outs ++ [⟨addr, c⟩])))
          (if (c : Int) + F b n cs outs - F b n cs (outs ++ [⟨addr, c⟩]) < 1000000 then outs
            else outs ++ [⟨addr, c + F b n cs outs - F b n cs (outs ++ [⟨addr, c⟩])⟩]))) := by
      unfold balanceStep
      rw [hch]
      dsimp only
      rw [if_neg (by omega), if_pos (by omega)]
      unfold onNegative
      have hout : (setFee (setOutputs b (outs ++ [⟨addr, c⟩])) (F b n cs (outs ++ [⟨addr, c⟩]))).tx.body.outputs = outs ++ [⟨addr, c⟩] := rfl
      rw [hout, if_neg (by simp)]
      unfold shrinkLast
      simp only [List.getLast?_append, List.getLast?_singleton, Option.some_or, List.dropLast_concat]
      rw [i64_small (show c < 2 ^ 63 by omega), addI64, if_pos (by omega), Out.ok_bind]
      dsimp only
      congr 3
      unfold minUtxo
      by_cases hv : (c : Int) + F b n cs outs - F b n cs (outs ++ [⟨addr, c⟩]) < 1000000
      · rw [if_pos hv, if_pos (by omega)]
      · rw [if_neg hv, if_neg (by omega)]
        have : u64 ((c : Int) + (b.inputTotal - (d + F b n cs (outs ++ [⟨addr, c⟩]) + (outputSum outs + c) : Nat))) =
            c + F b n cs outs - F b n cs (outs ++ [⟨addr, c⟩]) := by
          rw [u64_of_nonneg (by omega) (by omega)]
          omega
        rw [this]
    rw [hstep]
    dsimp only
    by_cases hv : (c : Int) + F b n cs outs - F b n cs (outs ++ [⟨addr, c⟩]) < 1000000
    · rw [if_pos hv]
      rw [restart']
      exact last_round k n r false b cs hc outs ok1 hk d hd ho (by omega) h1 (by omega) (by omega) (by simp)
    · rw [if_neg hv]
      generalize hx : c + F b n cs outs - F b n cs (outs ++ [⟨addr, c⟩]) = x
      have hxc : x ≤ c := by omega
      rw [restart']
      have F32 : F b n cs (outs ++ [⟨addr, x⟩]) ≤ F b n cs (outs ++ [⟨addr, c⟩]) := F_le b n cs (G_mono b n cs outs addr hxc)
      exact last_round k n r false b cs hc _ (ok2 x (by omega)) hk d hd (ho2 x (by omega)) (by omega) h1
        (by rw [hs2]; omega) (by rw [hs2]; omega) (by simp)
  · exact last_round k n (r + 1) false b cs hc _ (ok2 c (by omega)) hk d hd (ho2 c (by omega)) (by omega) h1
      (by rw [hs2]; omega) (by rw [hs2]; omega) (by simp)

/-- **C67**: if the inputs cover the outputs, the deposits and the minimum fee of the
transaction as built, `balance(n, true)` succeeds and keeps the outputs, appending at most one
to the change address (by `C52_balanced` the value equation then holds exactly).  For every builder with fee
parameters of a network (fixed part at least 65536, fees below 2^31) and amounts below 2^62. -/
theorem C67_force_balances (k n : Nat) (b : Builder) (ws : List VkeyWitness) (hn : ws.length = n)
    (hws : ∀ w ∈ ws, WitnessSized w) (hk : 12 ≤ k)
    (ha : 0 ≤ b.minFeeA) (hb : 2 ^ 16 ≤ b.minFeeB) (ha64 : b.minFeeA < 2 ^ 63)
    (hfit : ∀ s, TxSize (withWitnesses (addOutput b b.changeAddr (2 ^ 63 - 1)).tx ws) s →
      minFee b.minFeeA.toNat b.minFeeB.toNat (s + 12) < 2 ^ 31)
    (d : Nat) (hd : b.depositTotal = d) (ho : ∀ o ∈ b.tx.body.outputs, o.amount < 2 ^ 63) (h1 : b.inputTotal < 2 ^ 62)
    (f s : Nat) (hs : TxSize (withFee (withWitnesses b.tx ws) f) s) (hf : f = minFee b.minFeeA.toNat b.minFeeB.toNat s)
    (hfunds : (d + f + outputSum b.tx.body.outputs : Nat) ≤ b.inputTotal) :
    ∃ b', balance k b n true = some (b', .ok ()) ∧
      (b'.tx.body.outputs = b.tx.body.outputs ∨ ∃ x, b'.tx.body.outputs = b.tx.body.outputs ++ [⟨b.changeAddr, x⟩]) := by
  subst hn
  rw [txSize_iff, size_wits b.tx ws hws] at hs
  obtain ⟨cs, hc⟩ : ∃ cs, certsEntry b.tx.body.certificates = .ok cs := by
    cases hcs : certsEntry b.tx.body.certificates with
    | ok cs => exact ⟨cs, rfl⟩
    | throw e =>
      have : sizeWithFee (dummyTx b.tx ws.length) f = .throw e := by
        unfold sizeWithFee Tx.serialize Tx.ser TxBody.ser dummyTx
        dsimp only; rw [hcs]; rfl
      rw [this] at hs; cases hs
    | ub =>
      have : sizeWithFee (dummyTx b.tx ws.length) f = .ub := by
        unfold sizeWithFee Tx.serialize Tx.ser TxBody.ser dummyTx
        dsimp only; rw [hcs]; rfl
      rw [this] at hs; cases hs
  have hbig := hfit (G b ws.length cs (b.tx.body.outputs ++ [⟨b.changeAddr, 2 ^ 63 - 1⟩]) + uintSize b.tx.body.fee) (by
    rw [txSize_iff', size_wits _ ws hws]
    exact size_G b ws.length cs hc _ _)
  have hfit' : ∀ x, x < 2 ^ 63 → b.minFeeA.toNat * (G b ws.length cs (b.tx.body.outputs ++ [⟨b.changeAddr, x⟩]) + 13)
      + b.minFeeB.toNat < 2 ^ 31 := by
    intro x hx
    unfold minFee at hbig
    have hg := G_mono b ws.length cs b.tx.body.outputs b.changeAddr (show x ≤ 2 ^ 63 - 1 by omega)
    have := uintSize_pos b.tx.body.fee
    have : b.minFeeA.toNat * (G b ws.length cs (b.tx.body.outputs ++ [⟨b.changeAddr, x⟩]) + 13) ≤
        b.minFeeA.toNat * (G b ws.length cs (b.tx.body.outputs ++ [⟨b.changeAddr, 2 ^ 63 - 1⟩]) + uintSize b.tx.body.fee + 12) :=
      Nat.mul_le_mul_left _ (by omega)
    omega
  have ok1 : FeeOk b ws.length cs b.tx.body.outputs := by
    refine ⟨ha, hb, ?_, ha64⟩
    have h3 := hfit' 0 (by omega)
    have hg := G_le b ws.length cs b.tx.body.outputs ⟨b.changeAddr, 0⟩
    have : b.minFeeA.toNat * (G b ws.length cs b.tx.body.outputs + 13) ≤
        b.minFeeA.toNat * (G b ws.length cs (b.tx.body.outputs ++ [⟨b.changeAddr, 0⟩]) + 13) :=
      Nat.mul_le_mul_left _ (by omega)
    omega
  have hF : f = F b ws.length cs b.tx.body.outputs := by
    rw [show sizeWithFee (dummyTx b.tx ws.length) f = _ from size_G b ws.length cs hc b.tx.body.outputs f] at hs
    injection hs with hs
    have fit := ok1.fit
    unfold minFee at hf
    have : b.minFeeA.toNat * s ≤ b.minFeeA.toNat * (G b ws.length cs b.tx.body.outputs + 13) := by
      apply Nat.mul_le_mul_left
      have := uintSize_le f
      omega
    have hf5 : uintSize f = 5 := five (by omega) (by omega)
    rw [hf5] at hs
    rw [hf, ← hs]; rfl
  subst hF
  have hFl := ok1.F_lt
  have hup := upd k ws.length b cs hc b.tx.body.outputs ok1 hk
  rw [setOutputs_self] at hup
  have hch := change_eq' b b.tx.body.outputs (F b ws.length cs b.tx.body.outputs) d hd ho (by omega) (by omega) (by omega)
  rw [setOutputs_self] at hch
  suffices hsuc : ∃ b', balance k b ws.length true = some (b', .ok ()) by
    obtain ⟨b', hb'⟩ := hsuc
    exact ⟨b', hb', C55_partial k b _ b' ws.length true _ _ hup hch (by omega) hb'⟩
  unfold balance
  by_cases hm : b.inputTotal - (d + F b ws.length cs b.tx.body.outputs + outputSum b.tx.body.outputs : Nat) ≤ minUtxo
  · have hm' := hm
    unfold minUtxo at hm'
    exact last_round k ws.length 99 true b cs hc b.tx.body.outputs ok1 hk d hd ho (by omega) h1 hfunds (by omega) (fun _ => hm)
  · rw [round k ws.length 99 true _ _ hup]
    generalize hx : (b.inputTotal - (d + F b ws.length cs b.tx.body.outputs + outputSum b.tx.body.outputs : Nat)) = cI at *
    have hcI : cI = (cI.toNat : Int) := by unfold minUtxo at hm; omega
    have hstep : balanceStep k ws.length true true (setFee b (F b ws.length cs b.tx.body.outputs)) =
        some (.again (setOutputs (setFee b (F b ws.length cs b.tx.body.outputs))
          (b.tx.body.outputs ++ [⟨b.changeAddr, cI.toNat⟩]))) := by
      unfold balanceStep
      rw [hch]
      dsimp only
      unfold minUtxo at hm
      rw [if_neg (by omega), if_neg (by omega), onPositive, if_pos ⟨rfl, by unfold minUtxo; omega⟩,
        u64_of_nonneg (by omega) (by omega)]
      rfl
    rw [hstep]
    dsimp only
    rw [restart k ws.length 98]
    exact change_rounds k ws.length 97 b cs hc b.tx.body.outputs b.changeAddr hk d hd ha hb ha64 hfit' ho h1 cI.toNat
      (by omega) (by omega)

/-- The hypotheses are met by the sample payment: 10 ADA in, 5 ADA out, one witness. -/
example : ∃ b', balance 12 (payment 10000000 5000000) 1 true = some (b', .ok ()) ∧
    (b'.tx.body.outputs = (payment 10000000 5000000).tx.body.outputs ∨
      ∃ x, b'.tx.body.outputs = (payment 10000000 5000000).tx.body.outputs ++ [⟨(payment 10000000 5000000).changeAddr, x⟩]) := by
  refine C67_force_balances 12 1 (payment 10000000 5000000) [⟨List.replicate 32 0, List.replicate 64 0⟩] rfl
    (by simp [WitnessSized]) (by omega) (by decide) (by decide) (by decide) ?_ 0 rfl (by simp [payment]) (by decide)
    163829 192 ?_ (by decide +kernel) (by decide +kernel)
  · intro s hs
    have : sizeWithFee (withWitnesses (addOutput (payment 10000000 5000000) (payment 10000000 5000000).changeAddr (2 ^ 63 - 1)).tx
        [⟨List.replicate 32 0, List.replicate 64 0⟩]) 0 = .ok 229 := by decide +kernel
    rw [txSize_iff'] at hs
    have hs' : sizeWithFee _ 0 = .ok s := hs
    rw [this] at hs'
    injection hs' with hs'
    subst hs'
    decide +kernel
  · rw [txSize_iff]
    decide +kernel

end Cardano.TxBuilder
