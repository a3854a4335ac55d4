import Verif.Spec.GenesisFaults
import Verif.Props.Genesis

/-! # C73: exactly which genesis files are read, refused, or undefined behaviour -/

namespace Cardano.Genesis

open Cardano Cardano.Util

/-- The reader reads exactly the readable documents and is undefined exactly on the fatal ones. -/
class Exact {α} (s : outParam Schema) (fr : J → Out α) : Prop where
  ok : ∀ j, (∃ x, fr j = .ok x) ↔ Readable s j
  ub : ∀ j, fr j = .ub ↔ Fatal s j

theorem trunc_u (w : Nat) (d : Dbl) : ((∃ z, truncTo 0 (2 ^ w) d = .ok z) ↔ FitsU w d) ∧ (truncTo 0 (2 ^ w) d = .ub ↔ ¬ FitsU w d) := by
  cases d with
  | fin neg m e =>
    have hp : 0 < 2 ^ e := Nat.two_pow_pos e
    have h0 : m / 2 ^ e = 0 ↔ m < 2 ^ e := by rw [Nat.div_eq_zero_iff]; omega
    have h1 : m / 2 ^ e < 2 ^ w ↔ m < 2 ^ w * 2 ^ e := Nat.div_lt_iff_lt_mul hp
    have h2 : ((2 : Int) ^ w) = ((2 ^ w : Nat) : Int) := by simp
    have hw : 0 < 2 ^ w := Nat.two_pow_pos w
    have hcond : (0 ≤ (if neg then -((m / 2 ^ e : Nat) : Int) else ((m / 2 ^ e : Nat) : Int)) ∧
        (if neg then -((m / 2 ^ e : Nat) : Int) else ((m / 2 ^ e : Nat) : Int)) < (2 : Int) ^ w) ↔ FitsU w (.fin neg m e) := by
      simp only [FitsU]
      rw [← h0, ← h1, h2]
      generalize m / 2 ^ e = q
      generalize 2 ^ w = W at *
      cases neg <;> simp <;> omega
    unfold truncTo
    simp only
    by_cases hc : FitsU w (.fin neg m e)
    · rw [if_pos (hcond.mpr hc)]; simp [hc]
    · rw [if_neg (fun h => hc (hcond.mp h))]; simp [hc]
  | _ => simp [truncTo, FitsU]

theorem trunc_i (d : Dbl) : ((∃ z, truncTo (-2 ^ 63) (2 ^ 63) d = .ok z) ↔ FitsI d) ∧
    (truncTo (-2 ^ 63) (2 ^ 63) d = .ub ↔ ¬ FitsI d) := by
  cases d with
  | fin neg m e =>
    have hp : 0 < 2 ^ e := Nat.two_pow_pos e
    have h1 : m / 2 ^ e < 2 ^ 63 ↔ m < 2 ^ 63 * 2 ^ e := Nat.div_lt_iff_lt_mul hp
    have h2 : m / 2 ^ e < 2 ^ 63 + 1 ↔ m < (2 ^ 63 + 1) * 2 ^ e := Nat.div_lt_iff_lt_mul hp
    have hcond : (-2 ^ 63 ≤ (if neg then -((m / 2 ^ e : Nat) : Int) else ((m / 2 ^ e : Nat) : Int)) ∧
        (if neg then -((m / 2 ^ e : Nat) : Int) else ((m / 2 ^ e : Nat) : Int)) < (2 : Int) ^ 63) ↔ FitsI (.fin neg m e) := by
      simp only [FitsI]
      rw [← h1, ← h2]
      generalize m / 2 ^ e = q
      cases neg <;> simp <;> omega
    unfold truncTo
    simp only
    by_cases hc : FitsI (.fin neg m e)
    · rw [if_pos (hcond.mpr hc)]; simp [hc]
    · rw [if_neg (fun h => hc (hcond.mp h))]; simp [hc]
  | _ => simp [truncTo, FitsI]

theorem bind_ok_iff {α β} {x : Out α} {f : α → β} : (∃ y, (x >>= fun a => (Out.ok (f a))) = .ok y) ↔ ∃ a, x = .ok a := by
  cases x <;> simp

theorem bind_ub_iff {α β} {x : Out α} {f : α → β} : (x >>= fun a => (Out.ok (f a))) = .ub ↔ x = .ub := by
  cases x <;> simp

instance : Exact (.uint 64) getU64 where
  ok j := by
    cases j <;> simp [getU64, Readable, J.whole]
    rw [← (trunc_u 64 _).1]; exact bind_ok_iff
  ub j := by
    cases j <;> simp [getU64, Fatal]
    rw [← (trunc_u 64 _).2]; exact bind_ub_iff

theorem exact_u (w : Nat) (hw : w ≠ 64) : Exact (.uint w) (getUNarrow w) where
  ok j := by
    cases j <;> simp [getUNarrow, Readable, J.whole, hw]
    rw [← (trunc_u w _).1]; exact bind_ok_iff
  ub j := by
    cases j <;> simp [getUNarrow, Fatal]
    rw [← (trunc_u w _).2]; exact bind_ub_iff

instance : Exact (.uint 32) (getUNarrow 32) := exact_u 32 (by decide)
instance : Exact (.uint 16) (getUNarrow 16) := exact_u 16 (by decide)
instance : Exact (.uint 8) (getUNarrow 8) := exact_u 8 (by decide)

instance : Exact .int64 getI64 where
  ok j := by
    cases j <;> simp [getI64, Readable, J.whole]
    exact (trunc_i _).1
  ub j := by
    cases j <;> simp [getI64, Fatal]
    exact (trunc_i _).2

instance : Exact .num getDbl where
  ok j := by cases j <;> simp [getDbl, Readable, J.whole]
  ub j := by cases j <;> simp [getDbl, Fatal]

instance : Exact .str getStr where
  ok j := by cases j <;> simp [getStr, Readable]
  ub j := by cases j <;> simp [getStr, Fatal]

theorem entries_exact {α} {s : Schema} {fr : J → Out α} [h : Exact s fr] : ∀ l : List (String × J),
    ((∃ m, readEntries fr l = .ok m) ↔ ∀ p ∈ l, Readable s p.2) ∧
    (readEntries fr l = .ub ↔ ∃ pre p post, l = pre ++ p :: post ∧ (∀ q ∈ pre, Readable s q.2) ∧ Fatal s p.2) := by
  intro l
  induction l with
  | nil => simp [readEntries]
  | cons p l ih =>
    obtain ⟨k, v⟩ := p
    have hok := h.ok v
    have hub := h.ub v
    simp only [readEntries, Out.pure_eq]
    constructor
    · rw [List.forall_mem_cons, ← hok, ← ih.1]
      cases fr v <;> simp
      exact bind_ok_iff
    · have hsplit : (∃ pre p post, (k, v) :: l = pre ++ p :: post ∧ (∀ q ∈ pre, Readable s q.2) ∧ Fatal s p.2) ↔
          Fatal s v ∨ (Readable s v ∧ ∃ pre p post, l = pre ++ p :: post ∧ (∀ q ∈ pre, Readable s q.2) ∧ Fatal s p.2) := by
        constructor
        · rintro ⟨pre, p, post, e, h1, h2⟩
          cases pre with
          | nil =>
            obtain ⟨rfl, rfl⟩ := List.cons.inj e
            exact .inl h2
          | cons a pre =>
            obtain ⟨rfl, rfl⟩ := List.cons.inj e
            exact .inr ⟨h1 (k, v) List.mem_cons_self, pre, p, post, rfl, fun q hq => h1 q (List.mem_cons_of_mem _ hq), h2⟩
        · rintro (hf | ⟨hr, pre, p, post, rfl, h1, h2⟩)
          · exact ⟨[], (k, v), l, rfl, by simp, hf⟩
          · refine ⟨(k, v) :: pre, p, post, rfl, ?_, h2⟩
            intro q hq
            rcases List.mem_cons.mp hq with rfl | hq
            · exact hr
            · exact h1 q hq
      rw [hsplit, ← hok, ← hub, ← ih.2]
      cases fr v <;> simp
      exact bind_ub_iff

instance {α} {s : Schema} {fr : J → Out α} [h : Exact s fr] : Exact (.map s) (getMap fr) where
  ok j := by
    cases j <;> simp only [getMap, Readable] <;> try (constructor <;> (rintro ⟨_, h⟩; simp at h))
    rw [(entries_exact _).1]; simp
  ub j := by
    cases j <;> simp only [getMap, Fatal] <;> try (constructor <;> (intro h; simp at h))
    rw [(entries_exact _).2]; simp

theorem first_exact {α} {s : Schema} {fr : J → Out α} [h : Exact s fr] : ∀ (n : Nat) (l : List J),
    ((∃ m, readFirst fr n l = .ok m) ↔ n ≤ l.length ∧ ∀ x ∈ l.take n, Readable s x) ∧
    (readFirst fr n l = .ub ↔ ∃ pre x post, l = pre ++ x :: post ∧ pre.length < n ∧ (∀ q ∈ pre, Readable s q) ∧ Fatal s x) := by
  intro n
  induction n with
  | zero => intro l; simp [readFirst]
  | succ n ih =>
    intro l
    cases l with
    | nil => simp [readFirst]
    | cons v l =>
      have hok := h.ok v
      have hub := h.ub v
      have ih := ih l
      simp only [readFirst, Out.pure_eq]
      constructor
      · have e : (n + 1 ≤ (v :: l).length ∧ ∀ x ∈ (v :: l).take (n + 1), Readable s x) ↔
            Readable s v ∧ n ≤ l.length ∧ ∀ x ∈ l.take n, Readable s x := by
          simp only [List.length_cons, List.take_succ_cons, List.forall_mem_cons, Nat.add_le_add_iff_right]
          tauto
        rw [e, ← hok, ← ih.1]
        cases fr v <;> simp
        exact bind_ok_iff
      · have hsplit : (∃ pre x post, v :: l = pre ++ x :: post ∧ pre.length < n + 1 ∧ (∀ q ∈ pre, Readable s q) ∧ Fatal s x) ↔
            Fatal s v ∨ (Readable s v ∧ ∃ pre x post, l = pre ++ x :: post ∧ pre.length < n ∧ (∀ q ∈ pre, Readable s q) ∧ Fatal s x) := by
          constructor
          · rintro ⟨pre, p, post, e, hl, h1, h2⟩
            cases pre with
            | nil =>
              obtain ⟨rfl, rfl⟩ := List.cons.inj e
              exact .inl h2
            | cons a pre =>
              obtain ⟨rfl, rfl⟩ := List.cons.inj e
              exact .inr ⟨h1 v List.mem_cons_self, pre, p, post, rfl, by simpa using hl,
                fun q hq => h1 q (List.mem_cons_of_mem _ hq), h2⟩
          · rintro (hf | ⟨hr, pre, p, post, rfl, hl, h1, h2⟩)
            · exact ⟨[], v, l, rfl, by simp, by simp, hf⟩
            · refine ⟨v :: pre, p, post, rfl, by simpa using hl, ?_, h2⟩
              intro q hq
              rcases List.mem_cons.mp hq with rfl | hq
              · exact hr
              · exact h1 q hq
        rw [hsplit, ← hok, ← hub, ← ih.2]
        cases fr v <;> simp
        exact bind_ub_iff

instance {α} (n : Nat) {s : Schema} {fr : J → Out α} [h : Exact s fr] : Exact (.arr n s) (getArr n fr) where
  ok j := by
    cases j <;> simp only [getArr, Readable] <;> try (constructor <;> (rintro ⟨_, h⟩; simp at h))
    rw [(first_exact _ _).1]; simp
  ub j := by
    cases j <;> simp only [getArr, Fatal] <;> try (constructor <;> (intro h; simp at h))
    rw [(first_exact _ _).2]; simp

/-- The rest of an object reader, exactly. -/
def ExactFrom {β} (fs : List (String × Schema)) (j : J) (r : Out β) : Prop :=
  ((∃ y, r = .ok y) ↔ ReadableFields fs j) ∧ (r = .ub ↔ FatalFields fs j)

theorem exact_nil {β} (j : J) (y : β) : ExactFrom [] j (Out.ok y) := by
  simp [ExactFrom, ReadableFields, FatalFields]

theorem exact_cons {α β} {s : Schema} {fs : List (String × Schema)} {j : J} {k : String} {fr : J → Out α} {rest : α → Out β}
    [h : Exact s fr] (hr : ∀ a, ExactFrom fs j (rest a)) : ExactFrom ((k, s) :: fs) j (j.at k >>= fun v => fr v >>= rest) := by
  unfold ExactFrom
  simp only [ReadableFields, FatalFields]
  cases hk : j.get? k with
  | none => simp [J.at, hk]
  | some v =>
    have hok := h.ok v
    have hub := h.ub v
    simp only [J.at, hk, Out.ok_bind, Option.some.injEq, exists_eq_left']
    rw [← hok, ← hub]
    cases hv : fr v with
    | ok a => simpa [ExactFrom] using hr a
    | throw e => simp
    | ub => simp

theorem exact_obj {α} {fs : List (String × Schema)} {fr : J → Out α} (h : ∀ j, ExactFrom fs j (fr j)) : Exact (.obj fs) fr where
  ok j := by rw [Readable]; exact (h j).1
  ub j := by rw [Fatal]; exact (h j).2

local macro "genesis_exact" : tactic => `(tactic| (refine exact_obj fun j => ?_; repeat (first | exact exact_nil _ _ | refine exact_cons fun _ => ?_)))

instance : Exact Byron.softforkRuleS Byron.SoftforkRule.fromJson := by
  unfold Byron.softforkRuleS Byron.SoftforkRule.fromJson; genesis_exact

instance : Exact Byron.txFeePolicyS Byron.TxFeePolicy.fromJson := by
  unfold Byron.txFeePolicyS Byron.TxFeePolicy.fromJson; genesis_exact

instance : Exact Byron.blockVersionDataS Byron.BlockVersionData.fromJson := by
  unfold Byron.blockVersionDataS Byron.BlockVersionData.fromJson; genesis_exact

instance : Exact Byron.protocolConstsS Byron.ProtocolConsts.fromJson := by
  unfold Byron.protocolConstsS Byron.ProtocolConsts.fromJson; genesis_exact

instance : Exact Byron.delegationDataS Byron.DelegationData.fromJson := by
  unfold Byron.delegationDataS Byron.DelegationData.fromJson; genesis_exact

instance : Exact Byron.vssCertS Byron.VssCert.fromJson := by
  unfold Byron.vssCertS Byron.VssCert.fromJson; genesis_exact

instance : Exact Byron.paramsS Byron.Params.fromJson := by
  unfold Byron.paramsS Byron.Params.fromJson; genesis_exact

instance : Exact Shelley.protocolVersionS Shelley.ProtocolVersion.fromJson := by
  unfold Shelley.protocolVersionS Shelley.ProtocolVersion.fromJson; genesis_exact

instance : Exact Shelley.extraEntropyS Shelley.ExtraEntropy.fromJson := by
  unfold Shelley.extraEntropyS Shelley.ExtraEntropy.fromJson; genesis_exact

instance : Exact Shelley.protocolParametersS Shelley.ProtocolParameters.fromJson := by
  unfold Shelley.protocolParametersS Shelley.ProtocolParameters.fromJson; genesis_exact

instance : Exact Shelley.genDelegS Shelley.GenDeleg.fromJson := by
  unfold Shelley.genDelegS Shelley.GenDeleg.fromJson; genesis_exact

instance : Exact Shelley.orderS Shelley.Params.fromJson := by
  unfold Shelley.orderS Shelley.Params.fromJson; genesis_exact

instance : Exact Alonzo.priceFractionS Alonzo.PriceFraction.fromJson := by
  unfold Alonzo.priceFractionS Alonzo.PriceFraction.fromJson; genesis_exact

instance : Exact Alonzo.executionPricesS Alonzo.ExecutionPrices.fromJson := by
  unfold Alonzo.executionPricesS Alonzo.ExecutionPrices.fromJson; genesis_exact

instance : Exact Alonzo.executionUnitsS Alonzo.ExecutionUnits.fromJson := by
  unfold Alonzo.executionUnitsS Alonzo.ExecutionUnits.fromJson; genesis_exact

instance : Exact Alonzo.costModelsS Alonzo.CostModels.fromJson := by
  unfold Alonzo.costModelsS Alonzo.CostModels.fromJson; genesis_exact

instance : Exact Alonzo.paramsS Alonzo.Params.fromJson := by
  unfold Alonzo.paramsS Alonzo.Params.fromJson; genesis_exact

instance : Exact Conway.poolVotingThresholdsS Conway.PoolVotingThresholds.fromJson := by
  unfold Conway.poolVotingThresholdsS Conway.PoolVotingThresholds.fromJson; genesis_exact

instance : Exact Conway.dRepVotingThresholdsS Conway.DRepVotingThresholds.fromJson := by
  unfold Conway.dRepVotingThresholdsS Conway.DRepVotingThresholds.fromJson; genesis_exact

instance : Exact Conway.constitutionAnchorS Conway.ConstitutionAnchor.fromJson := by
  unfold Conway.constitutionAnchorS Conway.ConstitutionAnchor.fromJson; genesis_exact

instance : Exact Conway.constitutionS Conway.Constitution.fromJson := by
  unfold Conway.constitutionS Conway.Constitution.fromJson; genesis_exact

instance : Exact Conway.committeeThresholdS Conway.CommitteeThreshold.fromJson := by
  unfold Conway.committeeThresholdS Conway.CommitteeThreshold.fromJson; genesis_exact

instance : Exact Conway.committeeS Conway.Committee.fromJson := by
  unfold Conway.committeeS Conway.Committee.fromJson; genesis_exact

instance : Exact Conway.paramsS Conway.Params.fromJson := by
  unfold Conway.paramsS Conway.Params.fromJson; genesis_exact

/-- **C73** (exactly) For every file that parses: the files a configuration is read from, and those for which reading is undefined
behaviour; every other file is refused with an exception. -/
theorem C73_exact (j : J) :
    (((∃ g, fromFile Byron.Params.fromJson (some (some j)) = .ok g) ↔ Readable Byron.paramsS j) ∧
      (fromFile Byron.Params.fromJson (some (some j)) = .ub ↔ Fatal Byron.paramsS j)) ∧
    (((∃ g, fromFile Shelley.Params.fromJson (some (some j)) = .ok g) ↔ Readable Shelley.orderS j) ∧
      (fromFile Shelley.Params.fromJson (some (some j)) = .ub ↔ Fatal Shelley.orderS j)) ∧
    (((∃ g, fromFile Alonzo.Params.fromJson (some (some j)) = .ok g) ↔ Readable Alonzo.paramsS j) ∧
      (fromFile Alonzo.Params.fromJson (some (some j)) = .ub ↔ Fatal Alonzo.paramsS j)) ∧
    (((∃ g, fromFile Conway.Params.fromJson (some (some j)) = .ok g) ↔ Readable Conway.paramsS j) ∧
      (fromFile Conway.Params.fromJson (some (some j)) = .ub ↔ Fatal Conway.paramsS j)) := by
  simp only [fromFile]
  exact ⟨⟨Exact.ok j, Exact.ub j⟩, ⟨Exact.ok j, Exact.ub j⟩, ⟨Exact.ok j, Exact.ub j⟩, ⟨Exact.ok j, Exact.ub j⟩⟩


/-- Concrete cases: what is written of a configuration is readable; a fraction above the range is fatal, unless something before it
is missing, in which case the file is refused. -/
example : Readable Shelley.orderS mainnet.toJson :=
  (C73_exact _).2.1.1.mp ⟨_, C60_shelley_partial mainnet mainnet_wf⟩
example : Fatal Alonzo.paramsS (.obj [("lovelacePerUTxOWord", .float (.fin false (2 ^ 64) 0))]) :=
  .inl ⟨_, rfl, _, rfl, by simp [FitsU]⟩
example : ¬ Readable Alonzo.paramsS (.obj []) ∧ ¬ Fatal Alonzo.paramsS (.obj []) := by
  rw [← (C73_exact _).2.2.1.1, ← (C73_exact _).2.2.1.2]
  exact ⟨(fun ⟨g, h⟩ => by cases h), (fun h => by cases h)⟩

end Cardano.Genesis
