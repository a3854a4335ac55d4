import Verif.Props.TxTotals
import Mathlib.Data.List.Infix

/-! # C52 and C55: balancing

`src/shelley/transaction.cpp:216-313`. -/

namespace Cardano.TxBuilder

open Cardano Cardano.Ledger Cardano.Address Cardano.Spec.TxBuilder Cardano.Spec.Ledger

theorem sumOutputs_ok (l : List TxOut) : ∀ acc s, sumOutputs l acc = .ok s →
    s = acc + (l.map fun o => i64 o.amount).sum := by
  induction l with
  | nil => intro acc s h; simp only [sumOutputs, Out.ok.injEq] at h; simp [h]
  | cons o l ih =>
    intro acc s h
    rw [sumOutputs] at h
    obtain ⟨x, h1, h2⟩ := Out.bind_eq_ok.mp h
    unfold addI64 at h1
    split at h1
    · injection h1 with h1
      have := ih x s h2
      simp only [List.map_cons, List.sum_cons]
      omega
    · cases h1

theorem change_ok (b : Builder) (c : Int) (h : change b = .ok c) :
    b.inputTotal = b.depositTotal + i64 b.tx.body.fee + (b.tx.body.outputs.map fun o => i64 o.amount).sum + c ∧
    c < 2 ^ 63 := by
  unfold change totalOutgoing at h
  obtain ⟨s, h1, h2⟩ := Out.bind_eq_ok.mp h
  obtain ⟨x, h3, h4⟩ := Out.bind_eq_ok.mp h1
  have := sumOutputs_ok _ _ _ h4
  unfold addI64 at h2 h3
  split at h2
  · split at h3
    · injection h2 with h2; injection h3 with h3
      omega
    · cases h3
  · cases h2

theorem i64_small {n : Nat} (h : n < 2 ^ 63) : i64 n = n := by
  unfold i64
  rw [Nat.mod_eq_of_lt (by omega), if_pos h]

theorem outs_sum (l : List TxOut) (h : ∀ o ∈ l, o.amount < 2 ^ 63) :
    (l.map fun o => i64 o.amount).sum = (outputSum l : Nat) := by
  induction l with
  | nil => rfl
  | cons o l ih =>
    have := ih fun o ho => h o (by simp [ho])
    unfold outputSum at *
    simp only [List.map_cons, List.sum_cons, this, i64_small (h o (by simp))]
    omega

/-- The value equation of a stopped round. -/
theorem balanceStep_ok (k n : Nat) (force first : Bool) (b b' : Builder)
    (h : balanceStep k n force first b = some (.stop b' (.ok ()))) (hf : b'.tx.body.fee < 2 ^ 63)
    (ho : ∀ o ∈ b'.tx.body.outputs, o.amount < 2 ^ 63) :
    b'.inputTotal = b'.depositTotal + b'.tx.body.fee + outputSum b'.tx.body.outputs := by
  unfold balanceStep at h
  split at h
  · rename_i c hc
    obtain ⟨h1, h2⟩ := change_ok b c hc
    split at h
    · simp only [Option.some.injEq, Next.stop.injEq, and_true] at h
      subst h
      rw [outs_sum _ ho, i64_small hf] at h1
      omega
    · split at h
      · unfold onNegative at h
        split at h
        · cases h
        · split at h <;> cases h
      · unfold onPositive at h
        split at h
        · cases h
        · split at h
          · unfold forceFee at h
            dsimp only at h
            split at h
            · cases h
            · split at h
              · cases h
              · simp only [Option.some.injEq, Next.stop.injEq, and_true] at h
                subst h
                change (b.tx.body.fee + u64 c) % 2 ^ 64 < 2 ^ 63 at hf
                change ∀ o ∈ b.tx.body.outputs, _ at ho
                rw [outs_sum _ ho] at h1
                show b.inputTotal = b.depositTotal + ((b.tx.body.fee + u64 c) % 2 ^ 64 : Nat) + (outputSum b.tx.body.outputs : Nat)
                rw [h1]
                have e1 : u64 c = c.toNat := u64_of_nonneg (by omega) (by omega)
                have e2 : i64 b.tx.body.fee + c = ((b.tx.body.fee + u64 c) % 2 ^ 64 : Nat) := by
                  rw [e1] at hf ⊢
                  unfold i64
                  split <;> omega
                omega
            · cases h
            · cases h
          · cases h
  · cases h
  · cases h

theorem balanceLoop_ok (k n : Nat) (force : Bool) : ∀ r first b b',
    balanceLoop k n force r first b = some (b', .ok ()) →
    ∃ b0 first', balanceStep k n force first' b0 = some (.stop b' (.ok ())) := by
  intro r
  induction r with
  | zero => intro first b b' h; simp [balanceLoop] at h
  | succ r ih =>
    intro first b b' h
    rw [balanceLoop] at h
    split at h
    · cases h
    · cases h
    · cases h
    · split at h
      · cases h
      · rename_i b1 o hst
        simp only [Option.some.injEq, Prod.mk.injEq] at h
        obtain ⟨rfl, rfl⟩ := h
        exact ⟨_, _, hst⟩
      · exact ih _ _ _ h

/-- **C52**, in terms of the builder's totals: if `balance` succeeds, the total of inputs and
withdrawals equals deposits, fee and outputs exactly (for amounts below 2^63 lovelace; there
are fewer than 2^56). -/
theorem C52_balanced (k : Nat) (b b' : Builder) (n : Nat) (force : Bool) (h : balance k b n force = some (b', .ok ()))
    (hf : b'.tx.body.fee < 2 ^ 63) (ho : ∀ o ∈ b'.tx.body.outputs, o.amount < 2 ^ 63) :
    b.inputTotal = b.depositTotal + b'.tx.body.fee + outputSum b'.tx.body.outputs := by
  obtain ⟨b0, first, hst⟩ := balanceLoop_ok k n force _ _ _ _ h
  have := balanceStep_ok k n force first b0 b' hst hf ho
  obtain ⟨outs, fee, e⟩ := balance_frame k b b' n force _ h
  have e1 : b'.inputTotal = b.inputTotal := by rw [e]; rfl
  have e2 : b'.depositTotal = b.depositTotal := by rw [e]; rfl
  rw [← e1, ← e2]
  exact this

/-- **C52**, against the ledger's rule "consumed = produced": after any history that adds every
input and withdrawal address once, a successful `balance` makes value consumed, *without* the
refunds of stake deregistrations, equal value produced.  Missing: with deregistrations the
ledger also counts `keyDeposit` per deregistration, so the transaction is out of balance by
that amount and rejected; histories repeating an input (`C52_duplicate_input`). -/
theorem C52_history_partial (E : Env) (k : Nat) (ops : List Op) (b b' : Builder) (n : Nat) (force : Bool)
    (utxo : TxIn → Nat) (keyDeposit : Nat) (h : run E k {} ops = some b)
    (hb : balance k b n force = some (b', .ok ()))
    (hv : ∀ u ∈ inputsOf ops, u.value = utxo (spends u))
    (hi : ((inputsOf ops).map spends).Nodup) (hw : ((withdrawalsOf ops).map (·.1)).Nodup)
    (hs : addedSum ops < 2 ^ 63) (hd : depositSum ops < 2 ^ 63)
    (hf : b'.tx.body.fee < 2 ^ 63) (ho : ∀ o ∈ b'.tx.body.outputs, o.amount < 2 ^ 63) :
    consumed utxo keyDeposit b'.tx.body =
      produced (depositSum ops) b'.tx.body + keyDeposit * deregistrations b'.tx.body.certificates := by
  have h1 := C52_balanced k b b' n force hb hf ho
  obtain ⟨h2, h3⟩ := C51_partial E k ops b utxo h hv hi hw hs hd
  obtain ⟨outs, fee, e⟩ := balance_frame k b b' n force _ hb
  have e1 : b'.tx.body.inputs = b.tx.body.inputs := by rw [e]; rfl
  have e2 : b'.tx.body.withdrawals = b.tx.body.withdrawals := by rw [e]; rfl
  unfold consumed produced
  rw [e1, e2]
  omega

/-- **C52**, exactly, for every history: a successful `balance` makes the value produced the sum over all
*calls* that added an input or a withdrawal.  So the ledger's equation "consumed = produced" holds iff the
amounts counted twice (`C51_iff`) equal the refunds, which are not counted at all. -/
theorem C52_iff (E : Env) (k : Nat) (ops : List Op) (b b' : Builder) (n : Nat) (force : Bool)
    (utxo : TxIn → Nat) (keyDeposit : Nat) (h : run E k {} ops = some b)
    (hb : balance k b n force = some (b', .ok ()))
    (hs : addedSum ops < 2 ^ 63) (hd : depositSum ops < 2 ^ 63)
    (hf : b'.tx.body.fee < 2 ^ 63) (ho : ∀ o ∈ b'.tx.body.outputs, o.amount < 2 ^ 63) :
    produced (depositSum ops) b'.tx.body = addedSum ops ∧
    (consumed utxo keyDeposit b'.tx.body = produced (depositSum ops) b'.tx.body ↔
      addedSum ops = inputSum utxo b'.tx.body.inputs + withdrawalSum b'.tx.body.withdrawals +
        keyDeposit * deregistrations b'.tx.body.certificates) := by
  have h1 := C52_balanced k b b' n force hb hf ho
  obtain ⟨t1, t2⟩ := C51_totals E k ops b h
  have small : ∀ n : Nat, n < 2 ^ 63 → i64 n = n := by
    intro n hn
    unfold i64
    rw [Nat.mod_eq_of_lt (by omega), if_pos hn]
  rw [t1, t2, small _ hs, small _ hd] at h1
  have hp : produced (depositSum ops) b'.tx.body = addedSum ops := by unfold produced; omega
  refine ⟨hp, ?_⟩
  rw [hp]
  unfold consumed
  omega

/-- **C52**: without deregistrations the ledger's equation holds. -/
theorem C52_no_deregistration (E : Env) (k : Nat) (ops : List Op) (b b' : Builder) (n : Nat) (force : Bool)
    (utxo : TxIn → Nat) (keyDeposit : Nat) (h : run E k {} ops = some b)
    (hb : balance k b n force = some (b', .ok ()))
    (hv : ∀ u ∈ inputsOf ops, u.value = utxo (spends u))
    (hi : ((inputsOf ops).map spends).Nodup) (hw : ((withdrawalsOf ops).map (·.1)).Nodup)
    (hs : addedSum ops < 2 ^ 63) (hd : depositSum ops < 2 ^ 63)
    (hf : b'.tx.body.fee < 2 ^ 63) (ho : ∀ o ∈ b'.tx.body.outputs, o.amount < 2 ^ 63)
    (hdereg : ∀ a, Op.stakeDeregistration a ∉ ops) :
    consumed utxo keyDeposit b'.tx.body = produced (depositSum ops) b'.tx.body := by
  rw [C52_history_partial E k ops b b' n force utxo keyDeposit h hb hv hi hw hs hd hf ho]
  have : deregistrations b'.tx.body.certificates = 0 := by
    obtain ⟨outs, fee, e⟩ := balance_frame k b b' n force _ hb
    have e1 : b'.tx.body.certificates = b.tx.body.certificates := by rw [e]; rfl
    obtain ⟨-, -, g3, -⟩ := run_facts E k ops {} b h
    rw [e1, g3]
    unfold deregistrations
    rw [List.nil_append, List.countP_eq_zero]
    intro c hc
    obtain ⟨⟨c', d⟩, hm, rfl⟩ := List.mem_map.mp hc
    clear * - hm hdereg
    induction ops with
    | nil => cases hm
    | cons op ops ih =>
      have ih := ih fun a ha => hdereg a (by simp [ha])
      cases op <;> simp only [certsOf, List.mem_cons] at hm
      case stakeDeregistration a => exact absurd (by simp) (hdereg a)
      all_goals first
        | exact ih hm
        | (rcases hm with hm | hm
           · injection hm with h1 h2; subst h1; simp
           · exact ih hm)
  rw [this]; simp

/-- **C52** fails with a deregistration: the balanced transaction is out of balance by the
refunds. -/
theorem C52_refunds_ignored (E : Env) (k : Nat) (ops : List Op) (b b' : Builder) (n : Nat) (force : Bool)
    (utxo : TxIn → Nat) (keyDeposit : Nat) (h : run E k {} ops = some b)
    (hb : balance k b n force = some (b', .ok ()))
    (hv : ∀ u ∈ inputsOf ops, u.value = utxo (spends u))
    (hi : ((inputsOf ops).map spends).Nodup) (hw : ((withdrawalsOf ops).map (·.1)).Nodup)
    (hs : addedSum ops < 2 ^ 63) (hd : depositSum ops < 2 ^ 63)
    (hf : b'.tx.body.fee < 2 ^ 63) (ho : ∀ o ∈ b'.tx.body.outputs, o.amount < 2 ^ 63)
    (hk : 0 < keyDeposit) (hdereg : 0 < deregistrations b'.tx.body.certificates) :
    produced (depositSum ops) b'.tx.body < consumed utxo keyDeposit b'.tx.body := by
  rw [C52_history_partial E k ops b b' n force utxo keyDeposit h hb hv hi hw hs hd hf ho]
  have := Nat.mul_pos hk hdereg
  omega

/-! ## C55 -/

/-- `updateFee` does not depend on the fee and witnesses it finds. -/
theorem updateFee_congr (k n : Nat) (b b' : Builder) (h : setFee b 0 = setFee b' 0) :
    updateFee k b n = updateFee k b' n := by
  have h1 : ∀ f, setFee b f = setFee b' f := by
    intro f
    have := congrArg (fun x => setFee x f) h
    exact this
  have h2 : b.minFeeB = b'.minFeeB := congrArg (f := Builder.minFeeB) (a₁ := setFee b 0) (a₂ := setFee b' 0) h
  unfold updateFee
  rw [h2, h1]

theorem setFee_outputs (b : Builder) (l : List TxOut) : setFee (setOutputs b l) 0 = setOutputs (setFee b 0) l := rfl
theorem setOutputs_self (b : Builder) : setOutputs b b.tx.body.outputs = b := rfl

/-- Rounds after the first, when the change output may have been added. -/
theorem balanceLoop_keeps (k n : Nat) (force : Bool) (b0 b1 : Builder) (c : Int)
    (hu : updateFee k b0 n = some (b1, .ok ())) (hc : change b1 = .ok c) (h0 : 0 ≤ c) : ∀ r b b' o,
    (setFee b 0 = setFee b0 0 ∨ ∃ x, setFee b 0 = setFee (setOutputs b0 (b0.tx.body.outputs ++ [⟨b0.changeAddr, x⟩])) 0) →
    balanceLoop k n force r false b = some (b', o) →
    b'.tx.body.outputs = b0.tx.body.outputs ∨ ∃ x, b'.tx.body.outputs = b0.tx.body.outputs ++ [⟨b0.changeAddr, x⟩] := by
  intro r
  have outs : ∀ b : Builder,
      (setFee b 0 = setFee b0 0 ∨ ∃ x, setFee b 0 = setFee (setOutputs b0 (b0.tx.body.outputs ++ [⟨b0.changeAddr, x⟩])) 0) →
      b.tx.body.outputs = b0.tx.body.outputs ∨ ∃ x, b.tx.body.outputs = b0.tx.body.outputs ++ [⟨b0.changeAddr, x⟩] := by
    intro b h
    rcases h with h | ⟨x, h⟩
    · exact Or.inl (congrArg (f := fun b : Builder => b.tx.body.outputs) (a₁ := setFee b 0) (a₂ := setFee b0 0) h)
    · exact Or.inr ⟨x, congrArg (fun b : Builder => b.tx.body.outputs) h⟩
  induction r with
  | zero =>
    intro b b' o hinv h
    simp only [balanceLoop, Option.some.injEq, Prod.mk.injEq] at h
    rw [← h.1]
    exact outs b hinv
  | succ r ih =>
    intro b b' o hinv h
    rw [balanceLoop] at h
    have up : ∀ b2 o2, updateFee k b n = some (b2, o2) → setFee b2 0 = setFee b 0 := by
      intro b2 o2 hb2
      obtain ⟨f, rfl⟩ := updateFee_frame k b b2 n _ hb2
      rfl
    split at h
    · cases h
    · rename_i b2 e hb2
      simp only [Option.some.injEq, Prod.mk.injEq] at h
      rw [← h.1]; exact outs _ (by rw [up _ _ hb2]; exact hinv)
    · rename_i b2 hb2
      simp only [Option.some.injEq, Prod.mk.injEq] at h
      rw [← h.1]; exact outs _ (by rw [up _ _ hb2]; exact hinv)
    · rename_i b2 _ hb2
      have hinv2 : setFee b2 0 = setFee b0 0 ∨ ∃ x, setFee b2 0 = setFee (setOutputs b0 (b0.tx.body.outputs ++ [⟨b0.changeAddr, x⟩])) 0 := by
        rw [up _ _ hb2]; exact hinv
      -- what one round does
      have main : ∀ nx, balanceStep k n force false b2 = some nx →
          setFee nx.builder 0 = setFee b0 0 ∨
            ∃ x, setFee nx.builder 0 = setFee (setOutputs b0 (b0.tx.body.outputs ++ [⟨b0.changeAddr, x⟩])) 0 := by
        intro nx hnx
        unfold balanceStep at hnx
        split at hnx
        · rename_i c2 hc2
          split at hnx
          · simp only [Option.some.injEq] at hnx; subst hnx; exact hinv2
          · split at hnx
            · rename_i hneg
              simp only [Option.some.injEq] at hnx; subst hnx
              unfold onNegative
              split
              · exact hinv2
              · split
                · rename_i l hl
                  rcases hinv with hA | ⟨x, hB⟩
                  · -- the outputs are the user's: the change is the one of the first round
                    exfalso
                    rw [updateFee_congr k n b b0 hA, hu] at hb2
                    simp only [Option.some.injEq, Prod.mk.injEq] at hb2
                    rw [← hb2.1, hc] at hc2
                    injection hc2 with hc2
                    omega
                  · have hB2 : setFee b2 0 = setFee (setOutputs b0 (b0.tx.body.outputs ++ [⟨b0.changeAddr, x⟩])) 0 := by
                      rw [up _ _ hb2]; exact hB
                    have ho : b2.tx.body.outputs = b0.tx.body.outputs ++ [⟨b0.changeAddr, x⟩] :=
                      congrArg (fun b : Builder => b.tx.body.outputs) hB2
                    unfold shrinkLast at hl
                    rw [ho] at hl
                    simp only [List.getLast?_append, List.getLast?_singleton, Option.some_or] at hl
                    obtain ⟨new, -, h4⟩ := Out.bind_eq_ok.mp hl
                    injection h4 with h4
                    rw [List.dropLast_concat] at h4
                    show setFee (setOutputs b2 l) 0 = _ ∨ ∃ y, setFee (setOutputs b2 l) 0 = _
                    rw [← h4]
                    split
                    · left
                      rw [setFee_outputs, hB2, setFee_outputs]; rfl
                    · right
                      refine ⟨u64 new, ?_⟩
                      rw [setFee_outputs, hB2, setFee_outputs]; rfl
                · exact hinv2
                · exact hinv2
            · unfold onPositive at hnx
              split at hnx
              · rename_i hfirst; exact absurd hfirst.1 (by simp)
              · split at hnx
                · unfold forceFee at hnx
                  dsimp only at hnx
                  split at hnx
                  · cases hnx
                  · split at hnx <;> simp only [Option.some.injEq] at hnx <;> subst hnx <;> exact hinv2
                  · simp only [Option.some.injEq] at hnx; subst hnx; exact hinv2
                  · simp only [Option.some.injEq] at hnx; subst hnx; exact hinv2
                · simp only [Option.some.injEq] at hnx; subst hnx; exact hinv2
        · simp only [Option.some.injEq] at hnx; subst hnx; exact hinv2
        · simp only [Option.some.injEq] at hnx; subst hnx; exact hinv2
      split at h
      · cases h
      · rename_i b3 o3 hst
        simp only [Option.some.injEq, Prod.mk.injEq] at h
        rw [← h.1]
        exact outs _ (main _ hst)
      · rename_i b3 hst
        exact ih b3 b' o (main _ hst) h

/-- **C55**, when the funds suffice: if inputs cover outputs, deposits and the fee of the
transaction as the user built it, then — whatever the outcome of `balance`, and for every
number of witnesses and either `force` — the outputs are the user's, or the user's followed by
one output to the change address.  Missing: insufficient funds
(`C55_insufficient_funds_alters_outputs`). -/
theorem C55_partial (k : Nat) (b b1 b' : Builder) (n : Nat) (force : Bool) (o : Out Unit) (c : Int)
    (hu : updateFee k b n = some (b1, .ok ())) (hc : change b1 = .ok c) (h0 : 0 ≤ c)
    (h : balance k b n force = some (b', o)) :
    b'.tx.body.outputs = b.tx.body.outputs ∨ ∃ x, b'.tx.body.outputs = b.tx.body.outputs ++ [⟨b.changeAddr, x⟩] := by
  unfold balance at h
  rw [balanceLoop, hu] at h
  obtain ⟨f, rfl⟩ := updateFee_frame k b b1 n _ hu
  dsimp only at h
  unfold balanceStep at h
  rw [hc] at h
  dsimp only at h
  by_cases hz : c = 0
  · rw [if_pos hz] at h
    simp only [Option.some.injEq, Prod.mk.injEq] at h
    rw [← h.1]; exact Or.inl rfl
  · rw [if_neg hz, if_neg (show ¬ c < 0 by omega)] at h
    unfold onPositive at h
    by_cases hm : c > minUtxo
    · rw [if_pos ⟨rfl, hm⟩] at h
      dsimp only at h
      refine balanceLoop_keeps k n force b (setFee b f) c hu hc h0 _ _ _ _ ?_ h
      exact Or.inr ⟨u64 c, rfl⟩
    · rw [if_neg (fun hh => hm hh.2)] at h
      cases force with
      | true =>
        rw [if_pos rfl] at h
        unfold forceFee at h
        dsimp only at h
        split at h
        · cases h
        · rename_i hst
          split at hst
          · cases hst
          · split at hst <;> simp only [Option.some.injEq, Next.stop.injEq] at hst <;>
              (simp only [Option.some.injEq, Prod.mk.injEq] at h; rw [← h.1, ← hst.1]; exact Or.inl rfl)
          · simp only [Option.some.injEq, Next.stop.injEq] at hst
            simp only [Option.some.injEq, Prod.mk.injEq] at h; rw [← h.1, ← hst.1]; exact Or.inl rfl
          · simp only [Option.some.injEq, Next.stop.injEq] at hst
            simp only [Option.some.injEq, Prod.mk.injEq] at h; rw [← h.1, ← hst.1]; exact Or.inl rfl
        · rename_i hst
          exfalso
          split at hst
          · cases hst
          · split at hst <;> cases hst
          · cases hst
          · cases hst
      | false =>
        rw [if_neg (by simp)] at h
        dsimp only at h
        refine balanceLoop_keeps k n false b (setFee b f) c hu hc h0 _ _ _ _ ?_ h
        exact Or.inl rfl

/-- An output list that lost an output, or kept their number and lost value. -/
def Less (l m : List TxOut) : Prop := l.length < m.length ∨ (l.length = m.length ∧ outputSum l < outputSum m)

theorem less_not_prefix {l m : List TxOut} (h : Less l m) : ¬ m <+: l := by
  intro hp
  rcases h with h | ⟨h1, h2⟩
  · have := hp.length_le; omega
  · have := hp.eq_of_length h1.symm
    subst this; omega

theorem less_trans {l m p : List TxOut} (h : Less l m) (h' : Less m p) : Less l p := by
  unfold Less at *; omega

theorem shrink_less (l l' : List TxOut) (c : Int) (hc : c < 0) (h : shrinkLast l c = .ok l') : Less l' l := by
  unfold shrinkLast at h
  split at h
  · cases h
  · rename_i o ho
    obtain ⟨new, h1, h2⟩ := Out.bind_eq_ok.mp h
    injection h2 with h2
    have hl : l = l.dropLast ++ [o] := by
      rw [List.dropLast_append_getLast? _ ho]
    rw [← h2]
    unfold addI64 at h1
    split at h1
    · injection h1 with h1
      split
      · left
        rw [hl]; simp
      · rename_i hm
        right
        refine ⟨by rw [hl]; simp, ?_⟩
        conv => rhs; rw [hl]
        unfold outputSum
        simp only [List.map_append, List.map_cons, List.map_nil, List.sum_append, List.sum_cons, List.sum_nil]
        unfold minUtxo at hm
        have : u64 new < o.amount := by
          rw [u64_of_nonneg (by omega) (by omega)]
          unfold i64 at h1
          split at h1 <;> omega
        omega
    · cases h1

/-- Once outputs were reduced they stay so. -/
theorem balanceLoop_less (k n : Nat) (force : Bool) (outs : List TxOut) : ∀ r b b' o, Less b.tx.body.outputs outs →
    balanceLoop k n force r false b = some (b', o) → Less b'.tx.body.outputs outs := by
  intro r
  induction r with
  | zero =>
    intro b b' o hl h
    simp only [balanceLoop, Option.some.injEq, Prod.mk.injEq] at h
    rw [← h.1]; exact hl
  | succ r ih =>
    intro b b' o hl h
    rw [balanceLoop] at h
    have up : ∀ b2 o2, updateFee k b n = some (b2, o2) → Less b2.tx.body.outputs outs := by
      intro b2 o2 hb2
      obtain ⟨f, rfl⟩ := updateFee_frame k b b2 n _ hb2
      exact hl
    split at h
    · cases h
    · rename_i b2 e hb2
      simp only [Option.some.injEq, Prod.mk.injEq] at h
      rw [← h.1]; exact up _ _ hb2
    · rename_i b2 hb2
      simp only [Option.some.injEq, Prod.mk.injEq] at h
      rw [← h.1]; exact up _ _ hb2
    · rename_i b2 _ hb2
      have hl2 := up _ _ hb2
      have main : ∀ nx, balanceStep k n force false b2 = some nx → Less nx.builder.tx.body.outputs outs := by
        intro nx hnx
        unfold balanceStep at hnx
        split at hnx
        · rename_i c2 hc2
          split at hnx
          · simp only [Option.some.injEq] at hnx; subst hnx; exact hl2
          · split at hnx
            · rename_i hneg
              simp only [Option.some.injEq] at hnx; subst hnx
              unfold onNegative
              split
              · exact hl2
              · split
                · rename_i l hsh
                  exact less_trans (shrink_less _ _ _ hneg hsh) hl2
                · exact hl2
                · exact hl2
            · unfold onPositive at hnx
              split at hnx
              · rename_i hfirst; exact absurd hfirst.1 (by simp)
              · split at hnx
                · unfold forceFee at hnx
                  dsimp only at hnx
                  split at hnx
                  · cases hnx
                  · split at hnx <;> simp only [Option.some.injEq] at hnx <;> subst hnx <;> exact hl2
                  · simp only [Option.some.injEq] at hnx; subst hnx; exact hl2
                  · simp only [Option.some.injEq] at hnx; subst hnx; exact hl2
                · simp only [Option.some.injEq] at hnx; subst hnx; exact hl2
        · simp only [Option.some.injEq] at hnx; subst hnx; exact hl2
        · simp only [Option.some.injEq] at hnx; subst hnx; exact hl2
      split at h
      · cases h
      · rename_i b3 o3 hst
        simp only [Option.some.injEq, Prod.mk.injEq] at h
        rw [← h.1]
        exact main _ hst
      · rename_i b3 hst
        exact ih b3 b' o (main _ hst) h

/-- **C55** fails when the funds do not suffice: whenever `balance` then succeeds, it has
dropped or reduced an output of the user. -/
theorem C55_insufficient_funds_alters_outputs (k : Nat) (b b1 b' : Builder) (n : Nat) (force : Bool) (c : Int)
    (hu : updateFee k b n = some (b1, .ok ())) (hc : change b1 = .ok c) (h0 : c < 0)
    (h : balance k b n force = some (b', .ok ())) :
    ¬ b.tx.body.outputs <+: b'.tx.body.outputs := by
  apply less_not_prefix
  unfold balance at h
  rw [balanceLoop, hu] at h
  obtain ⟨f, rfl⟩ := updateFee_frame k b b1 n _ hu
  dsimp only at h
  unfold balanceStep at h
  rw [hc] at h
  dsimp only at h
  rw [if_neg (show ¬ c = 0 by omega), if_pos h0] at h
  unfold onNegative at h
  split at h
  · cases h
  · rename_i hst
    split at hst
    · simp only [Option.some.injEq, Next.stop.injEq] at hst
      simp only [Option.some.injEq, Prod.mk.injEq] at h
      rw [← hst.2] at h
      cases h.2
    · split at hst
      · cases hst
      · simp only [Option.some.injEq, Next.stop.injEq] at hst
        simp only [Option.some.injEq, Prod.mk.injEq] at h
        rw [← hst.2] at h
        cases h.2
      · simp only [Option.some.injEq, Next.stop.injEq] at hst
        simp only [Option.some.injEq, Prod.mk.injEq] at h
        rw [← hst.2] at h
        cases h.2
  · rename_i b2 hst
    split at hst
    · cases hst
    · split at hst
      · rename_i l hsh
        simp only [Option.some.injEq, Next.again.injEq] at hst
        subst hst
        exact balanceLoop_less k n force _ _ _ _ _ (shrink_less (setFee b f).tx.body.outputs l c h0 hsh) h
      · cases hst
      · cases hst

/-- **C55**, exactly: a successful `balance` keeps the user's outputs iff the inputs covered
the transaction as built. -/
theorem C55_iff (k : Nat) (b b1 b' : Builder) (n : Nat) (force : Bool) (c : Int)
    (hu : updateFee k b n = some (b1, .ok ())) (hc : change b1 = .ok c)
    (h : balance k b n force = some (b', .ok ())) :
    b.tx.body.outputs <+: b'.tx.body.outputs ↔ 0 ≤ c := by
  constructor
  · intro hp
    by_contra hneg
    exact C55_insufficient_funds_alters_outputs k b b1 b' n force c hu hc (by omega) h hp
  · intro h0
    rcases C55_partial k b b1 b' n force _ c hu hc h0 h with e | ⟨x, e⟩
    · rw [e]
    · rw [e]; exact List.prefix_append _ _

/-! ## C68 and C69: no dust, no waste -/

/-- What one round may do to the outputs: an output it makes holds 1 ADA or more, and goes to the change
address or to an address that was paid already. -/
def MadeBy (b : Builder) (o : TxOut) : Prop :=
  1000000 ≤ o.amount ∧ o.amount < 2 ^ 63 ∧ (o.address = b.changeAddr ∨ ∃ o' ∈ b.tx.body.outputs, o'.address = o.address)

theorem balanceStep_outputs (k n : Nat) (force first : Bool) (b : Builder) (nx : Next)
    (h : balanceStep k n force first b = some nx) :
    ∀ o ∈ nx.builder.tx.body.outputs, o ∈ b.tx.body.outputs ∨ MadeBy b o := by
  have same : nx.builder.tx.body.outputs = b.tx.body.outputs →
      ∀ o ∈ nx.builder.tx.body.outputs, o ∈ b.tx.body.outputs ∨ MadeBy b o := by
    intro e o ho; rw [e] at ho; exact Or.inl ho
  unfold balanceStep at h
  split at h
  · rename_i c hc
    have hlt := (change_ok b c hc).2
    split at h
    · simp only [Option.some.injEq] at h; subst h; exact same rfl
    · split at h
      · simp only [Option.some.injEq] at h; subst h
        unfold onNegative at same ⊢
        split at same
        · rename_i he; rw [if_pos he]; exact same rfl
        · rename_i he
          rw [if_neg he]
          split at same
          · rename_i l hl
            unfold shrinkLast at hl
            split at hl
            · cases hl
            · rename_i o ho
              obtain ⟨new, h1, h2⟩ := Out.bind_eq_ok.mp hl
              injection h2 with h2
              intro o' ho'
              change o' ∈ l at ho'
              rw [← h2] at ho'
              have hd : ∀ x ∈ b.tx.body.outputs.dropLast, x ∈ b.tx.body.outputs := fun x hx => List.mem_of_mem_dropLast hx
              split at ho'
              · exact Or.inl (hd _ ho')
              · rename_i hm
                rcases List.mem_append.mp ho' with ho' | ho'
                · exact Or.inl (hd _ ho')
                · rw [List.mem_singleton] at ho'
                  subst ho'
                  right
                  unfold minUtxo at hm
                  unfold addI64 at h1
                  split at h1
                  · injection h1 with h1
                    refine ⟨?_, ?_, Or.inr ⟨o, List.mem_of_getLast? ho, rfl⟩⟩
                    · show 1000000 ≤ u64 new
                      rw [u64_of_nonneg (by omega) (by omega)]
                      omega
                    · show u64 new < 2 ^ 63
                      rw [u64_of_nonneg (by omega) (by omega)]
                      omega
                  · cases h1
          · exact same rfl
          · exact same rfl
      · unfold onPositive at h
        split at h
        · rename_i hf
          simp only [Option.some.injEq] at h; subst h
          intro o ho
          change o ∈ b.tx.body.outputs ++ [(⟨b.changeAddr, u64 c⟩ : TxOut)] at ho
          rcases List.mem_append.mp ho with ho | ho
          · exact Or.inl ho
          · rw [List.mem_singleton] at ho
            subst ho
            right
            have := hf.2
            unfold minUtxo at this
            refine ⟨?_, ?_, Or.inl rfl⟩
            · show 1000000 ≤ u64 c
              rw [u64_of_nonneg (by omega) (by omega)]
              omega
            · show u64 c < 2 ^ 63
              rw [u64_of_nonneg (by omega) (by omega)]
              omega
        · split at h
          · unfold forceFee at h
            dsimp only at h
            split at h
            · cases h
            · split at h <;> simp only [Option.some.injEq] at h <;> subst h <;> exact same rfl
            · simp only [Option.some.injEq] at h; subst h; exact same rfl
            · simp only [Option.some.injEq] at h; subst h; exact same rfl
          · simp only [Option.some.injEq] at h; subst h; exact same rfl
  · simp only [Option.some.injEq] at h; subst h; exact same rfl
  · simp only [Option.some.injEq] at h; subst h; exact same rfl

theorem balanceLoop_outputs (k n : Nat) (force : Bool) : ∀ r first b b' o,
    balanceLoop k n force r first b = some (b', o) →
    ∀ o ∈ b'.tx.body.outputs, o ∈ b.tx.body.outputs ∨ MadeBy b o := by
  intro r
  induction r with
  | zero =>
    intro first b b' o h
    simp only [balanceLoop, Option.some.injEq, Prod.mk.injEq] at h
    rw [← h.1]; intro o ho; exact Or.inl ho
  | succ r ih =>
    intro first b b' o h
    rw [balanceLoop] at h
    have up : ∀ b2 o2, updateFee k b n = some (b2, o2) → b2.tx.body.outputs = b.tx.body.outputs := by
      intro b2 o2 hb2
      obtain ⟨f, rfl⟩ := updateFee_frame k b b2 n _ hb2
      rfl
    have up' : ∀ b2 o2, updateFee k b n = some (b2, o2) → b2.changeAddr = b.changeAddr := by
      intro b2 o2 hb2
      obtain ⟨f, rfl⟩ := updateFee_frame k b b2 n _ hb2
      rfl
    split at h
    · cases h
    · rename_i b2 e hb2
      simp only [Option.some.injEq, Prod.mk.injEq] at h
      rw [← h.1, up _ _ hb2]; intro o ho; exact Or.inl ho
    · rename_i b2 hb2
      simp only [Option.some.injEq, Prod.mk.injEq] at h
      rw [← h.1, up _ _ hb2]; intro o ho; exact Or.inl ho
    · rename_i b2 _ hb2
      unfold MadeBy
      rw [← up _ _ hb2, ← up' _ _ hb2]
      split at h
      · cases h
      · rename_i b3 o3 hst
        simp only [Option.some.injEq, Prod.mk.injEq] at h
        rw [← h.1]
        exact balanceStep_outputs k n force first b2 _ hst
      · rename_i b3 hst
        intro o ho
        have st := balanceStep_outputs k n force first b2 _ hst
        obtain ⟨outs3, fee3, e3⟩ := balanceStep_frame _ _ _ _ _ _ hst
        have ec : b3.changeAddr = b2.changeAddr := congrArg (·.changeAddr) e3
        rcases ih false b3 b' _ h o ho with h1 | ⟨h1, h2, h3⟩
        · exact st o h1
        · refine Or.inr ⟨h1, h2, ?_⟩
          rcases h3 with h3 | ⟨o', h3, h4⟩
          · exact Or.inl (h3.trans ec)
          · rcases st o' h3 with h5 | ⟨-, -, h5⟩
            · exact Or.inr ⟨o', h5, h4⟩
            · rw [h4] at h5; exact h5

/-- **C68**: `balance` creates no output below the minimum of 1 ADA and pays nobody new: whatever its
outcome, every output was there before, or holds at least 1000000 lovelace and goes to the change address or
to an address that was paid before. -/
theorem C68_no_dust (k : Nat) (b b' : Builder) (n : Nat) (force : Bool) (r : Out Unit)
    (h : balance k b n force = some (b', r)) :
    ∀ o ∈ b'.tx.body.outputs, o ∈ b.tx.body.outputs ∨
      1000000 ≤ o.amount ∧ o.amount < 2 ^ 63 ∧
        (o.address = b.changeAddr ∨ ∃ o' ∈ b.tx.body.outputs, o'.address = o.address) :=
  balanceLoop_outputs k n force 100 true b b' r h

theorem balanceLoop_noForce (k n : Nat) : ∀ r first b b',
    balanceLoop k n false r first b = some (b', .ok ()) → ∃ b0, updateFee k b0 n = some (b', .ok ()) := by
  intro r
  induction r with
  | zero => intro first b b' h; simp [balanceLoop] at h
  | succ r ih =>
    intro first b b' h
    rw [balanceLoop] at h
    split at h
    · cases h
    · cases h
    · cases h
    · rename_i b2 _ hb2
      split at h
      · cases h
      · rename_i b3 o3 hst
        simp only [Option.some.injEq, Prod.mk.injEq] at h
        obtain ⟨rfl, rfl⟩ := h
        unfold balanceStep at hst
        split at hst
        · split at hst
          · simp only [Option.some.injEq, Next.stop.injEq, and_true] at hst
            subst hst
            exact ⟨b, hb2⟩
          · split at hst
            · unfold onNegative at hst
              split at hst
              · cases hst
              · split at hst <;> cases hst
            · unfold onPositive at hst
              split at hst
              · cases hst
              · rw [if_neg (by simp)] at hst
                cases hst
        · cases hst
        · cases hst
      · exact ih _ _ _ h

/-- **C69**: a transaction balanced without `force` pays no more than the network asks: its fee
is the least fee that is the minimum fee of the transaction carrying it. -/
theorem C69_no_waste (k : Nat) (b b' : Builder) (n s : Nat) (h : balance k b n false = some (b', .ok ()))
    (ws : List VkeyWitness) (hn : ws.length = n)
    (hws : ∀ w ∈ ws, WitnessSized w) (hs : TxSize (withWitnesses b'.tx ws) s)
    (ha : 0 ≤ b.minFeeA) (hb : 0 ≤ b.minFeeB)
    (hfit : minFee b.minFeeA.toNat b.minFeeB.toNat (s + 8) < 2 ^ 64) (ha64 : b.minFeeA < 2 ^ 63) (hk : 12 ≤ k) :
    b'.tx.body.fee = minFee b.minFeeA.toNat b.minFeeB.toNat s ∧
    ∀ f s', TxSize (withFee (withWitnesses b'.tx ws) f) s' → f = minFee b.minFeeA.toNat b.minFeeB.toNat s' →
      b'.tx.body.fee ≤ f := by
  obtain ⟨b0, hb0⟩ := balanceLoop_noForce k n 100 true b b' h
  obtain ⟨outs, fee, e⟩ := balance_frame k b b' n false _ h
  have e1 : b'.minFeeA = b.minFeeA := by rw [e]; rfl
  have e2 : b'.minFeeB = b.minFeeB := by rw [e]; rfl
  have hagain : updateFee k b' n = some (b', .ok ()) := by
    obtain ⟨f, hf⟩ := updateFee_frame k b0 b' n _ hb0
    rw [← hb0]
    apply updateFee_congr
    rw [hf]; rfl
  rw [← e1] at ha hfit ha64 ⊢
  rw [← e2] at hb hfit ⊢
  obtain ⟨b2, h1, ⟨s2, h2, h3⟩, h4⟩ := C54_updateFee b' n k s ws hn hws hs ha hb hfit ha64 hk
  rw [hagain] at h1
  simp only [Option.some.injEq, Prod.mk.injEq, and_true] at h1
  subst h1
  refine ⟨?_, h4⟩
  have : s2 = s := by
    obtain ⟨x, hx1, hx2⟩ := h2
    obtain ⟨y, hy1, hy2⟩ := hs
    rw [hx1] at hy1
    injection hy1 with hy1
    rw [← hx2, ← hy2, hy1]
  rw [← this]; exact h3

/-! ## Concrete runs -/

/-- One input of `value` lovelace and one output of `amount` lovelace. -/
def payment (value amount : Nat) : Builder :=
  { tx := { body := { inputs := [⟨List.replicate 32 1, 0⟩], outputs := [⟨0x61 :: List.replicate 28 2, amount⟩] } }
    changeAddr := 0x61 :: List.replicate 28 3
    inputTotal := value }

/-- `payment` is what the calls build. -/
example (E : Env) (value amount : Nat) (h : value < 2 ^ 63) :
    run E 12 {} [.addInput ⟨List.replicate 32 1, 0, value⟩, .addOutputEnterprise ⟨0x61, List.replicate 28 2⟩ amount,
      .setChangeEnterprise ⟨0x61, List.replicate 28 3⟩] = some (payment value amount) := by
  have : addMixed 0 value = value := by
    unfold addMixed
    rw [show u64 0 = 0 from rfl, Nat.zero_add, i64_small h]
  simp only [run, step, addInput, List.length_replicate, Nat.lt_irrefl, if_false, setBody, clearWitnessSet, this,
    addOutput, payment, setInsert, UTxO.input, Single.toBytes, List.nil_append]
  rw [show (List.replicate 32 (1 : UInt8)).take 32 = List.replicate 32 1 from rfl]

/-- Enough funds: the change output appears, all is balanced (10 ADA in, 5 ADA out). -/
example : (balance 12 (payment 10000000 5000000) 1 false).map (fun r => (r.2, r.1.tx.body.outputs, r.1.tx.body.fee)) =
    some (.ok (), [⟨0x61 :: List.replicate 28 2, 5000000⟩, ⟨0x61 :: List.replicate 28 3, 4834543⟩], 165457) := by
  decide +kernel

/-- **C55** counterexample: 2 ADA in, 5 ADA out.  `balance` succeeds and pays the recipient less
than 2 ADA. -/
theorem C55_recipient_reduced :
    (balance 12 (payment 2000000 5000000) 1 false).map (fun r => (r.2, r.1.tx.body.outputs, r.1.tx.body.fee)) =
    some (.ok (), [⟨0x61 :: List.replicate 28 2, 1836171⟩], 163829) := by
  decide +kernel

/-- **C55** counterexample: 1 ADA in, 5 ADA out, forced: the recipient's output disappears and
the whole ADA becomes the fee. -/
theorem C55_recipient_dropped :
    (balance 12 (payment 1000000 5000000) 1 true).map (fun r => (r.2, r.1.tx.body.outputs, r.1.tx.body.fee)) =
    some (.ok (), [], 1000000) := by
  decide +kernel

/-- A builder to which the same 5 ADA input was added twice. -/
def doubled : Builder :=
  { tx := { body := { inputs := [⟨List.replicate 32 1, 0⟩] } }
    changeAddr := 0x61 :: List.replicate 28 3
    inputTotal := 10000000 }

/-- **C52** counterexample: the same 5 ADA input added twice; `balance` succeeds with outputs and
fee worth 10 ADA. -/
theorem C52_duplicate_input (E : Env) :
    ∃ b b', run E 12 {} [.addInput ⟨List.replicate 32 1, 0, 5000000⟩, .addInput ⟨List.replicate 32 1, 0, 5000000⟩,
        .setChangeEnterprise ⟨0x61, List.replicate 28 3⟩] = some b ∧
      balance 12 b 1 false = some (b', .ok ()) ∧
      b'.tx.body.inputs = [⟨List.replicate 32 1, 0⟩] ∧ produced 0 b'.tx.body = 10000000 := by
  obtain ⟨b', hb⟩ : ∃ b', balance 12 doubled 1 false = some (b', .ok ()) ∧
      b'.tx.body.inputs = [⟨List.replicate 32 1, 0⟩] ∧ produced 0 b'.tx.body = 10000000 := by
    have h : (balance 12 doubled 1 false).map (fun r => (r.2, r.1.tx.body.inputs, produced 0 r.1.tx.body)) =
        some (.ok (), [⟨List.replicate 32 1, 0⟩], 10000000) := by decide +kernel
    obtain ⟨r, h1, h2⟩ := Option.map_eq_some_iff.mp h
    obtain ⟨b', o⟩ := r
    simp only [Prod.mk.injEq] at h2
    exact ⟨b', by rw [h1, h2.1], h2.2.1, h2.2.2⟩
  refine ⟨doubled, b', ?_, hb⟩
  simp only [run, step, addInput, List.length_replicate, Nat.lt_irrefl, if_false, setBody, clearWitnessSet,
    doubled, setInsert, UTxO.input, Single.toBytes, txInLt_order.irrefl, Bool.false_eq_true]
  rw [show (List.replicate 32 (1 : UInt8)).take 32 = List.replicate 32 1 from rfl,
    show addMixed (addMixed 0 5000000) 5000000 = 10000000 from by decide +kernel]

end Cardano.TxBuilder
