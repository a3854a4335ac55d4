import Verif.Props.TxBalance
import Verif.Props.BabbageBuilder

/-! # C85: a failed builder call

What a `TransactionBuilder` is after a call that threw, for a caller that catches the exception and
goes on. -/

namespace Cardano.TxBuilder

open Cardano Cardano.Ledger Cardano.Address Cardano.Cbor Cardano.Spec.TxBuilder

/-! ### Whether a transaction can be serialized does not depend on its fee or outputs -/

theorem txser_cases (t : Tx) :
    (∃ cs, certsEntry t.body.certificates = .ok cs ∧ ∃ bs, t.serialize = .ok bs) ∨
    (∃ e, certsEntry t.body.certificates = .throw e ∧ t.serialize = .throw e) ∨
    (certsEntry t.body.certificates = .ub ∧ t.serialize = .ub) := by
  unfold Tx.serialize Tx.ser TxBody.ser
  cases h : certsEntry t.body.certificates with
  | ok cs => exact Or.inl ⟨cs, rfl, _, rfl⟩
  | throw e => exact Or.inr (Or.inl ⟨e, rfl, rfl⟩)
  | ub => exact Or.inr (Or.inr ⟨rfl, rfl⟩)

theorem size_throw_iff (t : Tx) (n f : Nat) (e : Exc) :
    sizeWithFee (dummyTx t n) f = .throw e ↔ certsEntry t.body.certificates = .throw e := by
  have hc := txser_cases { dummyTx t n with body := { (dummyTx t n).body with fee := f } }
  rw [show ({ dummyTx t n with body := { (dummyTx t n).body with fee := f } } : Tx).body.certificates =
    t.body.certificates from rfl] at hc
  unfold sizeWithFee
  rcases hc with ⟨cs, h1, bs, h2⟩ | ⟨e', h1, h2⟩ | ⟨h1, h2⟩ <;> rw [h1, h2] <;>
    simp [Bind.bind, Out.bind]

theorem serialize_throw_iff (t : Tx) (e : Exc) :
    t.serialize = .throw e ↔ certsEntry t.body.certificates = .throw e := by
  rcases txser_cases t with ⟨cs, h1, bs, h2⟩ | ⟨e', h1, h2⟩ | ⟨h1, h2⟩ <;> rw [h1, h2] <;> simp

theorem feeLoop_throw (t : Tx) (n a b : Nat) : ∀ k fee cf e, feeLoop (dummyTx t n) a b k fee cf = some (.throw e) →
    certsEntry t.body.certificates = .throw e := by
  intro k
  induction k with
  | zero => intro fee cf e h; simp [feeLoop] at h
  | succ k ih =>
    intro fee cf e h
    rw [feeLoop] at h
    split at h
    · simp at h
    · split at h
      · exact ih _ _ _ h
      · rename_i e' hs
        simp only [Option.some.injEq, Out.throw.injEq] at h
        subst h
        exact (size_throw_iff t n cf e').mp hs
      · simp at h

theorem calculateFee_throw (k : Nat) (b : Builder) (n : Nat) (e : Exc) (h : calculateFee k b n = some (.throw e)) :
    certsEntry b.tx.body.certificates = .throw e := by
  unfold calculateFee at h
  split at h
  · exact feeLoop_throw b.tx n _ _ _ _ _ _ h
  · rename_i e' hs
    simp only [Option.some.injEq, Out.throw.injEq] at h
    subst h
    exact (size_throw_iff b.tx n _ e').mp hs
  · simp at h

theorem updateLoop_throw (k n : Nat) : ∀ r b cf b' e, updateLoop k n r b cf = some (b', .throw e) →
    certsEntry b.tx.body.certificates = .throw e := by
  intro r
  induction r with
  | zero => intro b cf b' e h; simp [updateLoop] at h
  | succ r ih =>
    intro b cf b' e h
    rw [updateLoop] at h
    split at h
    · simp at h
    · split at h
      · simp at h
      · exact ih (setFee b cf) _ _ _ h
      · rename_i e' hs
        simp only [Option.some.injEq, Prod.mk.injEq, Out.throw.injEq] at h
        rw [← h.2]
        exact calculateFee_throw k (setFee b cf) n e' hs
      · simp at h

/-- **C85** (`updateFee`): it throws only if the transaction cannot be serialized, with the exception
of `serialize`; it has then set the fee to the constant part of the fee and dropped the key witnesses. -/
theorem C85_updateFee_failed (k : Nat) (b b' : Builder) (n : Nat) (e : Exc)
    (h : updateFee k b n = some (b', .throw e)) :
    b.tx.serialize = .throw e ∧ b' = setFee b (u64 b.minFeeB) := by
  unfold updateFee at h
  dsimp only at h
  split at h
  · simp at h
  · rename_i f hf
    have h1 := updateLoop_throw k n k _ f b' e h
    have h2 : calculateFee k (setFee b (u64 b.minFeeB)) n = some (.throw e) := by
      unfold calculateFee
      rw [(size_throw_iff (setFee b (u64 b.minFeeB)).tx n _ e).mpr h1]
    rw [h2] at hf
    simp at hf
  · rename_i e' hs
    simp only [Option.some.injEq, Prod.mk.injEq, Out.throw.injEq] at h
    obtain ⟨rfl, rfl⟩ := h
    exact ⟨(serialize_throw_iff b.tx e').mpr (calculateFee_throw k (setFee b (u64 b.minFeeB)) n e' hs), rfl⟩
  · simp at h

/-- **C85** (all other calls): a call other than `updateFee` and `balance` that throws leaves the builder
as it was.
Missing: `updateFee` and `balance`, for which the claim is false of the code (C85_updateFee_failed,
C85_insufficient_loses_outputs). -/
theorem C85_other_calls_partial (E : Env) (k : Nat) (b b' : Builder) (op : Op) (e : Exc)
    (hu : ∀ n, op ≠ .updateFee n) (hb : ∀ n f, op ≠ .balance n f) (h : step E k b op = some (b', .throw e)) : b' = b := by
  cases op with
  | addInput u =>
    simp only [step, addInput] at h
    split at h <;> simp at h
    exact h.1.symm
  | updateFee n => exact absurd rfl (hu n)
  | balance n f => exact absurd rfl (hb n f)
  | sign key =>
    simp only [step, sign] at h
    split at h <;> simp at h
    exact h.1.symm
  | _ => simp [step] at h

/-- **C85** (when): the only other calls that throw are `addInput`, exactly for ids under 32 bytes, and `sign`,
which throws only if the body cannot be serialized or the key cannot sign. -/
theorem C85_throwing_calls (E : Env) (k : Nat) (b b' : Builder) (op : Op) (e : Exc)
    (h : step E k b op = some (b', .throw e)) :
    (∃ u, op = .addInput u ∧ u.id.length < 32 ∧ e = .invalidArgument) ∨
    (∃ key, op = .sign key ∧ witnessFor E b key = .throw e) ∨ (∃ n, op = .updateFee n) ∨ (∃ n f, op = .balance n f) := by
  cases op with
  | addInput u =>
    simp only [step, addInput] at h
    split at h <;> simp at h
    rename_i hl
    exact Or.inl ⟨u, rfl, hl, h.2.symm⟩
  | updateFee n => exact Or.inr (Or.inr (Or.inl ⟨n, rfl⟩))
  | balance n f => exact Or.inr (Or.inr (Or.inr ⟨n, f, rfl⟩))
  | sign key =>
    simp only [step, sign] at h
    split at h <;> simp at h
    rename_i e' hw
    exact Or.inr (Or.inl ⟨key, rfl, h.2 ▸ hw⟩)
  | _ => simp [step] at h

/-! ### `balance` -/

theorem addI64_not_throw (a b : Int) (e : Exc) : addI64 a b ≠ .throw e := by
  unfold addI64; split <;> simp

theorem bind_not_throw {α β : Type} {x : Out α} {f : α → Out β} (hx : ∀ e, x ≠ .throw e)
    (hf : ∀ a e, f a ≠ .throw e) (e : Exc) : (x >>= f) ≠ .throw e := by
  cases x with
  | ok a => exact hf a e
  | throw e' => exact absurd rfl (hx e')
  | ub => simp [Bind.bind, Out.bind]

theorem sumOutputs_not_throw : ∀ (l : List TxOut) (acc : Int) (e : Exc), sumOutputs l acc ≠ .throw e
  | [], acc, e => by simp [sumOutputs]
  | o :: l, acc, e => by
    rw [sumOutputs]
    exact bind_not_throw (addI64_not_throw _ _) (fun a e => sumOutputs_not_throw l a e) e

theorem change_not_throw (b : Builder) (e : Exc) : change b ≠ .throw e := by
  unfold change totalOutgoing
  exact bind_not_throw (bind_not_throw (addI64_not_throw _ _) (fun a e => sumOutputs_not_throw _ a e))
    (fun a e => addI64_not_throw _ _ e) e

theorem shrinkLast_not_throw (l : List TxOut) (c : Int) (e : Exc) : shrinkLast l c ≠ .throw e := by
  unfold shrinkLast
  split
  · simp
  · exact bind_not_throw (addI64_not_throw _ _) (fun a e => by simp) e

/-- Why a round ends with an exception. -/
theorem balanceStep_throw (k n : Nat) (force first : Bool) (b b' : Builder) (e : Exc)
    (hser : ∀ e, certsEntry b.tx.body.certificates ≠ .throw e)
    (h : balanceStep k n force first b = some (.stop b' (.throw e))) :
    e = .runtimeError ∧
    ((b' = b ∧ b.tx.body.outputs = [] ∧ ∃ c, change b = .ok c ∧ c < 0) ∨
     (force = true ∧ (∃ c, change b = .ok c ∧ 0 < c) ∧
       ∃ f, calculateFee k b' n = some (.ok f) ∧ b'.tx.body.fee < f ∧ b'.tx.body.outputs = b.tx.body.outputs)) := by
  unfold balanceStep at h
  split at h
  · rename_i c hc
    split at h
    · simp at h
    · split at h
      · rename_i hneg
        simp only [Option.some.injEq] at h
        unfold onNegative at h
        split at h
        · rename_i he
          simp only [Next.stop.injEq, Out.throw.injEq] at h
          exact ⟨h.2.symm, Or.inl ⟨h.1.symm, he, c, hc, hneg⟩⟩
        · split at h
          · simp at h
          · rename_i e' hs
            exact absurd hs (shrinkLast_not_throw _ _ _)
          · simp at h
      · rename_i h0 hneg
        unfold onPositive at h
        split at h
        · simp at h
        · split at h
          · rename_i hf
            unfold forceFee at h
            dsimp only at h
            split at h
            · simp at h
            · rename_i f hcf
              split at h
              · rename_i hlt
                simp only [Option.some.injEq, Next.stop.injEq, Out.throw.injEq] at h
                obtain ⟨rfl, rfl⟩ := h
                exact ⟨rfl, Or.inr ⟨hf, ⟨c, hc, by omega⟩, f, hcf, hlt, rfl⟩⟩
              · simp at h
            · rename_i e' hcf
              exact absurd (calculateFee_throw _ _ _ _ hcf) (hser e')
            · simp at h
          · simp at h
  · rename_i e' hc
    exact absurd hc (change_not_throw b e')
  · simp at h

theorem certs_setFee {b b' : Builder} {f : Nat} (h : b' = setFee b f) :
    b'.tx.body.certificates = b.tx.body.certificates := by subst h; rfl

theorem certs_step {k n : Nat} {force first : Bool} {b : Builder} {nx : Next}
    (h : balanceStep k n force first b = some nx) :
    nx.builder.tx.body.certificates = b.tx.body.certificates := by
  obtain ⟨outs, fee, e⟩ := balanceStep_frame _ _ _ _ _ _ h
  rw [e]; rfl

/-- The last of the 100 rounds, when `balance` gives up: it left an unused rest, or it cut the outputs once
more. -/
def GivesUp (force : Bool) (b' : Builder) : Prop :=
  (force = false ∧ ∃ c, change b' = .ok c ∧ 0 < c) ∨
  (∃ outs c, c < 0 ∧ change (setOutputs b' outs) = .ok c ∧ shrinkLast outs c = .ok b'.tx.body.outputs)

theorem balanceStep_again (k n : Nat) (force : Bool) (b b' : Builder)
    (h : balanceStep k n force false b = some (.again b')) : GivesUp force b' := by
  unfold balanceStep at h
  split at h
  · rename_i c hc
    split at h
    · simp at h
    · split at h
      · rename_i hneg
        simp only [Option.some.injEq] at h
        unfold onNegative at h
        split at h
        · simp at h
        · split at h
          · rename_i outs hs
            simp only [Next.again.injEq] at h
            subst h
            exact Or.inr ⟨b.tx.body.outputs, c, hneg, hc, hs⟩
          · simp at h
          · simp at h
      · unfold onPositive at h
        split at h
        · rename_i hf; exact absurd hf.1 (by simp)
        · split at h
          · unfold forceFee at h
            dsimp only at h
            split at h
            · simp at h
            · split at h <;> simp at h
            · simp at h
            · simp at h
          · rename_i hf
            simp only [Option.some.injEq, Next.again.injEq] at h
            subst h
            exact Or.inl ⟨by simpa using hf, c, hc, by omega⟩
  · simp at h
  · simp at h

theorem balanceLoop_throw (k n : Nat) (force : Bool) : ∀ r first b b' e,
    (∀ e, certsEntry b.tx.body.certificates ≠ .throw e) → (first = true → 1 ≤ r) → (r = 0 → GivesUp force b) →
    balanceLoop k n force r first b = some (b', .throw e) →
    e = .runtimeError ∧
    ((b'.tx.body.outputs = [] ∧ ∃ c, change b' = .ok c ∧ c < 0) ∨
     (force = true ∧ ∃ f, calculateFee k b' n = some (.ok f) ∧ b'.tx.body.fee < f) ∨ GivesUp force b' ∨
     (r = 1 ∧ first = true)) := by
  intro r
  induction r with
  | zero =>
    intro first b b' e _ _ hg h
    simp only [balanceLoop, Option.some.injEq, Prod.mk.injEq, Out.throw.injEq] at h
    obtain ⟨rfl, rfl⟩ := h
    exact ⟨rfl, Or.inr (Or.inr (Or.inl (hg rfl)))⟩
  | succ r ih =>
    intro first b b' e hser _ _ h
    rw [balanceLoop] at h
    split at h
    · simp at h
    · rename_i b1 e' hu
      have := (C85_updateFee_failed k b b1 n e' hu).1
      rw [serialize_throw_iff] at this
      exact absurd this (hser e')
    · simp at h
    · rename_i b1 _ hu
      obtain ⟨f, hf⟩ := updateFee_frame k b b1 n _ hu
      split at h
      · simp at h
      · rename_i b2 o hst
        simp only [Option.some.injEq, Prod.mk.injEq] at h
        obtain ⟨rfl, rfl⟩ := h
        obtain ⟨h1, h2⟩ := balanceStep_throw k n force first b1 _ e (by rw [certs_setFee hf]; exact hser) hst
        refine ⟨h1, ?_⟩
        rcases h2 with ⟨rfl, h3, h4⟩ | ⟨h3, _, f, h5, h6, _⟩
        · exact Or.inl ⟨h3, h4⟩
        · exact Or.inr (Or.inl ⟨h3, f, h5, h6⟩)
      · rename_i b2 hst
        have hc2 : b2.tx.body.certificates = b.tx.body.certificates := (certs_step hst).trans (certs_setFee hf)
        by_cases hlast : r = 0
        · subst hlast
          simp only [balanceLoop, Option.some.injEq, Prod.mk.injEq, Out.throw.injEq] at h
          obtain ⟨rfl, rfl⟩ := h
          cases first with
          | true => exact ⟨rfl, Or.inr (Or.inr (Or.inr ⟨rfl, rfl⟩))⟩
          | false => exact ⟨rfl, Or.inr (Or.inr (Or.inl (balanceStep_again k n force b1 b2 hst)))⟩
        · obtain ⟨h1, h2⟩ := ih false b2 b' e (by rw [hc2]; exact hser) (by simp) (fun h0 => absurd h0 hlast) h
          exact ⟨h1, by rcases h2 with h2 | h2 | h2 | ⟨_, h2⟩
                        · exact Or.inl h2
                        · exact Or.inr (Or.inl h2)
                        · exact Or.inr (Or.inr (Or.inl h2))
                        · exact absurd h2 (by simp)⟩

/-- **C85** (`balance`): what a failed `balance` leaves.  Everything but the outputs, the fee and the key
witnesses is as before.  If the transaction can be serialized, the exception is `runtime_error` and either
all outputs are gone and the funds do not even cover deposits and fee, or the forced fee is too small for
itself, or the 100 rounds are used up (with a rest that could not be used, or cutting outputs). -/
theorem C85_balance_failed (k : Nat) (b b' : Builder) (n : Nat) (force : Bool) (e : Exc)
    (h : balance k b n force = some (b', .throw e)) :
    (∃ outs fee, b' = setBody (clearWitnessSet b) fun t => { t with outputs := outs, fee := fee }) ∧
    (b.tx.serialize = .throw e ∧ b'.tx.body.outputs = b.tx.body.outputs ∨
     e = .runtimeError ∧
      ((b'.tx.body.outputs = [] ∧ ∃ c, change b' = .ok c ∧ c < 0) ∨
       (force = true ∧ ∃ f, calculateFee k b' n = some (.ok f) ∧ b'.tx.body.fee < f) ∨ GivesUp force b')) := by
  refine ⟨balance_frame k b b' n force _ h, ?_⟩
  by_cases hser : ∃ e, certsEntry b.tx.body.certificates = .throw e
  · obtain ⟨e', he'⟩ := hser
    left
    unfold balance at h
    rw [balanceLoop] at h
    have hu : updateFee k b n = some (setFee b (u64 b.minFeeB), .throw e') := by
      unfold updateFee calculateFee
      dsimp only
      rw [(size_throw_iff (setFee b (u64 b.minFeeB)).tx n _ e').mpr he']
    rw [hu] at h
    simp only [Option.some.injEq, Prod.mk.injEq, Out.throw.injEq] at h
    obtain ⟨rfl, rfl⟩ := h
    exact ⟨(serialize_throw_iff _ _).mpr he', rfl⟩
  · right
    unfold balance at h
    obtain ⟨h1, h2⟩ := balanceLoop_throw k n force 100 true b b' e (fun e he => hser ⟨e, he⟩) (by omega) (by omega) h
    exact ⟨h1, by rcases h2 with h2 | h2 | h2 | ⟨h2, _⟩
                  · exact Or.inl h2
                  · exact Or.inr (Or.inl h2)
                  · exact Or.inr (Or.inr h2)
                  · omega⟩

theorem baseSize_dropLast (t : Tx) (cs : List Item) (n : Nat) :
    baseSize (dummyTx { t with body := { t.body with outputs := t.body.outputs.dropLast } } n) cs ≤ baseSize (dummyTx t n) cs := by
  unfold baseSize dummyTx
  dsimp only
  have h : (encList (itemsA { t.body with outputs := t.body.outputs.dropLast })).length ≤ (encList (itemsA t.body)).length := by
    unfold itemsA
    simp only [encList, enc, List.length_append, encHeader_length, List.length_map, List.length_nil, List.length_dropLast]
    have h1 : uintSize (t.body.outputs.length - 1) ≤ uintSize t.body.outputs.length := uintSize_mono (by omega)
    have h2 : (encList (t.body.outputs.dropLast.map fun o => Item.array o.ser)).length ≤
        (encList (t.body.outputs.map fun o => Item.array o.ser)).length := by
      rcases List.eq_nil_or_concat t.body.outputs with h | ⟨l, o, h⟩
      · rw [h]; simp
      · rw [h]
        simp only [List.concat_eq_append, List.dropLast_concat, List.map_append, encList_append, List.length_append]
        omega
    omega
  have h2 : (itemsA { t.body with outputs := t.body.outputs.dropLast }).length = (itemsA t.body).length := rfl
  have h3 : itemsB { t.body with outputs := t.body.outputs.dropLast } cs = itemsB t.body cs := rfl
  rw [h2, h3]
  dsimp only at h ⊢
  omega

/-- Amounts small enough for signed 64-bit sums. -/
theorem sumOutputs_small : ∀ (l : List TxOut) (acc : Int), 0 ≤ acc → acc + (outputSum l : Nat) < 2 ^ 63 →
    sumOutputs l acc = .ok (acc + (outputSum l : Nat))
  | [], acc, _, _ => by simp [sumOutputs, outputSum]
  | o :: l, acc, h0, h => by
    have e : outputSum (o :: l) = o.amount + outputSum l := by simp [outputSum]
    rw [e] at h ⊢
    rw [sumOutputs, i64_small (by omega)]
    have : addI64 acc o.amount = .ok (acc + o.amount) := by unfold addI64; rw [if_pos (by omega)]
    rw [this, Out.ok_bind, sumOutputs_small l _ (by omega) (by omega)]
    congr 1; omega

theorem outputSum_dropLast (l : List TxOut) (o : TxOut) (h : l.getLast? = some o) :
    outputSum l = outputSum l.dropLast + o.amount := by
  rcases List.eq_nil_or_concat l with h' | ⟨m, o', h'⟩
  · rw [h'] at h; simp at h
  · rw [h'] at h ⊢
    simp only [List.concat_eq_append, List.getLast?_concat, Option.some.injEq] at h
    subst h
    simp [outputSum]

theorem balanceLoop_poor (k n : Nat) (force : Bool) (cs : List Item) (K : Nat) (hk : 12 ≤ k) : ∀ r first b,
    b.tx.body.outputs.length < r → certsEntry b.tx.body.certificates = .ok cs → baseSize (dummyTx b.tx n) cs ≤ K →
    0 ≤ b.minFeeA → 0 ≤ b.minFeeB → b.minFeeA < 2 ^ 63 → minFee b.minFeeA.toNat b.minFeeB.toNat (K + 17) < 2 ^ 62 →
    0 ≤ b.inputTotal → 0 ≤ b.depositTotal → b.depositTotal + (outputSum b.tx.body.outputs : Int) < 2 ^ 62 →
    b.inputTotal < b.depositTotal + b.minFeeB →
    ∃ b', balanceLoop k n force r first b = some (b', .throw .runtimeError) ∧ b'.tx.body.outputs = [] := by
  intro r
  induction r with
  | zero => intro first b h; omega
  | succ r ih =>
    intro first b hlen hcs hK ha hb ha63 hfit hin hdep hsum hpoor
    have hbase : TxSize (withWitnesses b.tx (List.replicate n ⟨List.replicate 32 0, List.replicate 64 0⟩))
        (baseSize (dummyTx b.tx n) cs + uintSize b.tx.body.fee) := by
      rw [txSize_iff', show (withWitnesses b.tx (List.replicate n ⟨List.replicate 32 0, List.replicate 64 0⟩)) =
        dummyTx b.tx n from rfl]
      exact ser_length (dummyTx b.tx n) cs hcs _
    have hle9 := uintSize_le b.tx.body.fee
    have hfit' : minFee b.minFeeA.toNat b.minFeeB.toNat (baseSize (dummyTx b.tx n) cs + uintSize b.tx.body.fee + 8) < 2 ^ 64 := by
      have : minFee b.minFeeA.toNat b.minFeeB.toNat (baseSize (dummyTx b.tx n) cs + uintSize b.tx.body.fee + 8) ≤
          minFee b.minFeeA.toNat b.minFeeB.toNat (K + 17) := by
        unfold minFee
        have := Nat.mul_le_mul_left b.minFeeA.toNat (show baseSize (dummyTx b.tx n) cs + uintSize b.tx.body.fee + 8 ≤ K + 17 by omega)
        omega
      omega
    obtain ⟨b1, hu, ⟨s', hs', hfee⟩, -⟩ := C54_updateFee b n k _ _ (List.length_replicate ..) (dummy_sized n) hbase ha hb hfit' ha63 hk
    obtain ⟨f, hf⟩ := updateFee_frame k b b1 n _ hu
    subst hf
    have hs'' : s' = baseSize (dummyTx b.tx n) cs + uintSize f := by
      rw [txSize_iff', show (withWitnesses (setFee b f).tx (List.replicate n ⟨List.replicate 32 0, List.replicate 64 0⟩)) =
        dummyTx (setFee b f).tx n from rfl, ser_length (dummyTx (setFee b f).tx n) cs hcs] at hs'
      exact (Out.ok.inj hs').symm
    have hfee' : f = minFee b.minFeeA.toNat b.minFeeB.toNat s' := hfee
    have hflt : f < 2 ^ 62 := by
      have : f ≤ minFee b.minFeeA.toNat b.minFeeB.toNat (K + 17) := by
        rw [hfee', hs'']
        unfold minFee
        have h9 := uintSize_le f
        have := Nat.mul_le_mul_left b.minFeeA.toNat (show baseSize (dummyTx b.tx n) cs + uintSize f ≤ K + 17 by omega)
        omega
      omega
    have hfge : b.minFeeB.toNat ≤ f := by rw [hfee']; unfold minFee; omega
    have hchange : change (setFee b f) = .ok (b.inputTotal - (b.depositTotal + f + (outputSum b.tx.body.outputs : Nat))) := by
      unfold change totalOutgoing
      show (do
        let s ← (do let s ← addI64 b.depositTotal (i64 f); sumOutputs b.tx.body.outputs s)
        addI64 b.inputTotal (-s)) = _
      rw [i64_small (by omega)]
      have : addI64 b.depositTotal f = .ok (b.depositTotal + f) := by unfold addI64; rw [if_pos (by omega)]
      rw [this, Out.ok_bind, sumOutputs_small _ _ (by omega) (by omega), Out.ok_bind]
      unfold addI64
      rw [if_pos (by omega)]
      congr 1
    rw [balanceLoop, hu]
    dsimp only
    unfold balanceStep
    rw [hchange]
    dsimp only
    rw [if_neg (by omega), if_pos (by omega)]
    unfold onNegative
    by_cases hnil : (setFee b f).tx.body.outputs = []
    · rw [if_pos hnil]
      exact ⟨_, rfl, hnil⟩
    · rw [if_neg hnil]
      have hnil' : b.tx.body.outputs ≠ [] := hnil
      obtain ⟨o, ho⟩ : ∃ o, b.tx.body.outputs.getLast? = some o := by
        cases h : b.tx.body.outputs.getLast? with
        | none => exact absurd (List.getLast?_eq_none_iff.mp h) hnil'
        | some o => exact ⟨o, rfl⟩
      have hsumo := outputSum_dropLast _ _ ho
      have hshrink : shrinkLast (setFee b f).tx.body.outputs
          (b.inputTotal - (b.depositTotal + f + (outputSum b.tx.body.outputs : Nat))) = .ok b.tx.body.outputs.dropLast := by
        show shrinkLast b.tx.body.outputs _ = _
        unfold shrinkLast
        rw [ho]
        dsimp only
        rw [i64_small (by omega)]
        unfold addI64
        rw [if_pos (by omega), Out.ok_bind, if_pos (by unfold minUtxo; omega)]
      rw [hshrink]
      dsimp only
      have hpos : 0 < b.tx.body.outputs.length := List.length_pos_iff.mpr hnil'
      refine ih false (setOutputs (setFee b f) b.tx.body.outputs.dropLast) ?_ hcs ?_ ha hb ha63 hfit hin hdep ?_ hpoor
      · show b.tx.body.outputs.dropLast.length < r
        rw [List.length_dropLast]; omega
      · refine Nat.le_trans (Nat.le_of_eq ?_) (Nat.le_trans (baseSize_dropLast b.tx cs n) hK)
        rfl
      · show b.depositTotal + (outputSum b.tx.body.outputs.dropLast : Int) < 2 ^ 62
        omega

/-- **C85** is false of the code: when the funds do not cover the deposits and the constant part of the fee,
`balance` throws, forced or not, and every output the caller had asked for is gone from the builder. -/
theorem C85_insufficient_loses_outputs (k : Nat) (b : Builder) (n : Nat) (force : Bool) (s : Nat)
    (hk : 12 ≤ k) (hs : TxSize (dummyTx b.tx n) s)
    (ha : 0 ≤ b.minFeeA) (hb : 0 ≤ b.minFeeB) (ha63 : b.minFeeA < 2 ^ 63)
    (hfit : minFee b.minFeeA.toNat b.minFeeB.toNat (s + 16) < 2 ^ 62)
    (hin : 0 ≤ b.inputTotal) (hdep : 0 ≤ b.depositTotal)
    (hsum : b.depositTotal + (outputSum b.tx.body.outputs : Int) < 2 ^ 62)
    (hlen : b.tx.body.outputs.length < 100) (hpoor : b.inputTotal < b.depositTotal + b.minFeeB) :
    ∃ b', balance k b n force = some (b', .throw .runtimeError) ∧ b'.tx.body.outputs = [] := by
  rw [txSize_iff'] at hs
  obtain ⟨cs, hcs⟩ : ∃ cs, certsEntry b.tx.body.certificates = .ok cs := by
    rcases txser_cases { dummyTx b.tx n with body := { (dummyTx b.tx n).body with fee := (dummyTx b.tx n).body.fee } } with
      ⟨cs, h1, _⟩ | ⟨e, _, h2⟩ | ⟨_, h2⟩
    · exact ⟨cs, h1⟩
    · unfold sizeWithFee at hs; rw [h2] at hs; simp [Bind.bind, Out.bind] at hs
    · unfold sizeWithFee at hs; rw [h2] at hs; simp [Bind.bind, Out.bind] at hs
  rw [ser_length (dummyTx b.tx n) cs hcs] at hs
  have hs := Out.ok.inj hs
  have hp := uintSize_pos (dummyTx b.tx n).body.fee
  refine balanceLoop_poor k n force cs (baseSize (dummyTx b.tx n) cs) hk 100 true b hlen hcs (Nat.le_refl _) ha hb ha63 ?_ hin hdep hsum hpoor
  have : minFee b.minFeeA.toNat b.minFeeB.toNat (baseSize (dummyTx b.tx n) cs + 17) ≤ minFee b.minFeeA.toNat b.minFeeB.toNat (s + 16) := by
    unfold minFee
    have := Nat.mul_le_mul_left b.minFeeA.toNat (show baseSize (dummyTx b.tx n) cs + 17 ≤ s + 16 by omega)
    omega
  omega

/-- The hypotheses are met: 0.1 ADA in, 5 ADA out. -/
example : ∃ b', balance 12 (payment 100000 5000000) 1 false = some (b', .throw .runtimeError) ∧ b'.tx.body.outputs = [] := by
  have hs : ∃ s, s < 1000 ∧ TxSize (dummyTx (payment 100000 5000000).tx 1) s := by
    refine ⟨_, ?_, _, rfl, rfl⟩
    decide +kernel
  obtain ⟨s, h1, hs⟩ := hs
  refine C85_insufficient_loses_outputs 12 _ 1 false s (by omega) hs (by decide) (by decide) (by decide) ?_ (by decide)
    (by decide) (by decide) (by decide) (by decide)
  show 44 * (s + 16) + 155381 < 2 ^ 62
  omega

/-- **C85** is false of the code, and it costs money: a payment of 5 ADA with too small an input; the caller
catches the exception, adds an input of 10 ADA and balances again.  The call succeeds, and the transaction
pays everything to the change address, nothing to the recipient. -/
theorem C85_retry_pays_no_one (E : Env) :
    ∃ b, run E 12 {} [.addInput ⟨List.replicate 32 1, 0, 100000⟩, .addOutputEnterprise ⟨0x61, List.replicate 28 2⟩ 5000000,
        .setChangeEnterprise ⟨0x61, List.replicate 28 3⟩, .balance 1 false,
        .addInput ⟨List.replicate 32 4, 0, 10000000⟩, .balance 1 false] = some b ∧
      b.tx.body.outputs = [⟨0x61 :: List.replicate 28 3, 9934587⟩] ∧ b.tx.body.fee = 165413 := by
  have h : ((run E 12 {} [.addInput ⟨List.replicate 32 1, 0, 100000⟩, .addOutputEnterprise ⟨0x61, List.replicate 28 2⟩ 5000000,
        .setChangeEnterprise ⟨0x61, List.replicate 28 3⟩, .balance 1 false,
        .addInput ⟨List.replicate 32 4, 0, 10000000⟩, .balance 1 false]).map fun b => (b.tx.body.outputs, b.tx.body.fee)) =
      some ([⟨0x61 :: List.replicate 28 3, 9934587⟩], 165413) := by
    simp only [run, step]
    decide +kernel
  obtain ⟨b, h1, h2⟩ := Option.map_eq_some_iff.mp h
  simp only [Prod.mk.injEq] at h2
  exact ⟨b, h1, h2⟩

end Cardano.TxBuilder

namespace Cardano.BabbageBuilder

open Cardano

/-- **C85** (Babbage): a call on a Babbage builder that throws leaves the builder as it was; the throwing
calls are `balance` (always), `addInput` with an id under 32 bytes, and `sign` with a key that cannot
sign. -/
theorem C85_babbage (E : TxBuilder.Env) (k : Nat) (b b' : Builder) (op : Op) (e : Exc)
    (h : step E k b op = some (b', .throw e)) :
    b' = b ∧ ((∃ id ix, op = .addInput id ix ∧ id.length < 32 ∧ e = .invalidArgument) ∨
      (∃ n, op = .balance n ∧ e = .runtimeError) ∨ (∃ key, op = .sign key ∧ witnessFor E b key = .throw e)) := by
  cases op with
  | addInput id ix =>
    simp only [step, addInput] at h
    split at h <;> simp at h
    rename_i hl
    exact ⟨h.1.symm, Or.inl ⟨id, ix, rfl, hl, h.2.symm⟩⟩
  | balance n =>
    simp [step, balance] at h
    exact ⟨h.1.symm, Or.inr (Or.inl ⟨n, rfl, h.2.symm⟩)⟩
  | sign key =>
    simp only [step, sign] at h
    split at h <;> simp at h
    rename_i e' hw
    exact ⟨h.1.symm, Or.inr (Or.inr ⟨key, rfl, h.2 ▸ hw⟩)⟩
  | calculateFee n =>
    simp only [step, Option.map_eq_some_iff] at h
    obtain ⟨r, _, hr⟩ := h
    simp at hr
  | _ => simp [step] at h

example : step E 12 {} (.balance 2) = some ({}, .throw .runtimeError) := rfl

end Cardano.BabbageBuilder
