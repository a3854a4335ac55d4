import Verif.Props.BabbageBuilder

/-! # C78: the order of Babbage builder calls -/

namespace Cardano.BabbageBuilder

open Cardano Cardano.Ledger Cardano.Cbor Cardano.Spec.BabbageBuilder Cardano.Spec.Ledger
open Cardano.TxBuilder (Env SKey setInsert_comm mapAssign_comm)

theorem order_append (E : Env) (k : Nat) (ops ops' : List Op) : ∀ b, run E k b (ops ++ ops') =
    match run E k b ops with
    | none => none
    | some b' => run E k b' ops' := by
  induction ops with
  | nil => intro b; rfl
  | cons op ops ih =>
    intro b
    rw [List.cons_append, run, run]
    split <;> simp_all

/-- The builder's sets are sorted. -/
def InOrder (b : Builder) : Prop :=
  StrictSorted TxIn.lt b.tx.body.inputs ∧ StrictSorted bytesLt (b.tx.body.withdrawals.map (·.1))

theorem order_sorted (E : Env) (k : Nat) (ops : List Op) (b b' : Builder) (hb : InOrder b) (h : run E k b ops = some b') :
    InOrder b' := by
  obtain ⟨g1, g2, -⟩ := run_facts E k ops b b' h
  refine ⟨?_, ?_⟩
  · rw [g1]; exact (foldl_setInsert txInLt_order _ _ hb.1).1
  · rw [g2]; exact (TxBuilder.foldl_mapAssign _ _ hb.2).1

/-- The two calls add an input or a withdrawal, and do not withdraw from the same address. -/
def Swaps : Op → Op → Prop
  | .addInput .., .addInput .. => True
  | .addInput .., .addWithdrawal .. => True
  | .addWithdrawal .., .addInput .. => True
  | .addWithdrawal a _, .addWithdrawal a' _ => a.toBytes ≠ a'.toBytes
  | _, _ => False

theorem swap_calls (E : Env) (k : Nat) (b : Builder) (x y : Op) (ops : List Op) (hb : InOrder b) (hxy : Swaps x y) :
    run E k b (x :: y :: ops) = run E k b (y :: x :: ops) := by
  cases x <;> cases y <;> simp only [Swaps] at hxy
  case addInput.addInput u i v j =>
    simp only [run, step, addInput]
    by_cases hu : u.length < 32 <;> by_cases hv : v.length < 32 <;> simp only [hu, hv, if_true, if_false]
    congr 1
    simp only [setBody, clearWitnessSet]
    rw [setInsert_comm txInLt_order _ _ _ hb.1]
  case addInput.addWithdrawal u i a n =>
    simp only [run, step, addInput]
    by_cases hu : u.length < 32 <;> simp only [hu, if_true, if_false]
    rfl
  case addWithdrawal.addInput a n u i =>
    simp only [run, step, addInput]
    by_cases hu : u.length < 32 <;> simp only [hu, if_true, if_false]
    rfl
  case addWithdrawal.addWithdrawal a n a' n' =>
    simp only [run, step]
    congr 1
    simp only [setBody, clearWitnessSet, addWithdrawal]
    rw [mapAssign_comm bytesLt_order _ _ _ _ _ (fun e => hxy e.symm) hb.2]

theorem perm_calls (E : Env) (k : Nat) {ops ops' : List Op} (hp : ops.Perm ops') (post : List Op) :
    ∀ b, InOrder b → ops.Pairwise Swaps → run E k b (ops ++ post) = run E k b (ops' ++ post) := by
  have sym : ∀ x y, Swaps x y → Swaps y x := by
    intro x y h
    cases x <;> cases y <;> simp_all [Swaps]
    exact fun e => h e.symm
  induction hp with
  | nil => intros; rfl
  | cons x p ih =>
    intro b hb hc
    simp only [List.cons_append, run]
    split
    · rfl
    · rfl
    · rename_i b1 o _ hst
      have h1 : run E k b [x] = some b1 := by simp only [run, hst]
      exact ih b1 (order_sorted E k [x] b b1 hb h1) (List.pairwise_cons.mp hc).2
  | swap x y l =>
    intro b hb hc
    exact swap_calls E k b y x (l ++ post) hb ((List.pairwise_cons.mp hc).1 x (by simp))
  | trans p q ih1 ih2 =>
    intro b hb hc
    rw [ih1 b hb hc]
    exact ih2 b hb ((p.pairwise_iff (fun {x y} => sym x y)).mp hc)

/-- **C78** (order).  Adding the same inputs and withdrawals (from different addresses) in any order gives the same builder,
and so the same bytes and id, anywhere in any history: also if fees are calculated and the transaction is signed before or
afterwards. -/
theorem C78_permutation (E : Env) (k : Nat) (pre ops ops' post : List Op) (hp : ops.Perm ops')
    (ha : ∀ op ∈ ops, (∃ id i, op = .addInput id i) ∨ ∃ a n, op = .addWithdrawal a n)
    (hw : ((withdrawalsOf ops).map (·.1)).Nodup) :
    run E k {} (pre ++ ops ++ post) = run E k {} (pre ++ ops' ++ post) := by
  rw [List.append_assoc, List.append_assoc, order_append E k pre, order_append E k pre]
  cases h : run E k {} pre with
  | none => rfl
  | some b =>
    refine perm_calls E k hp post b (order_sorted E k pre {} b ⟨List.Pairwise.nil, List.Pairwise.nil⟩ h) ?_
    clear h hp
    induction ops with
    | nil => exact List.Pairwise.nil
    | cons op ops ih =>
      refine List.pairwise_cons.mpr ⟨?_, ih (fun x hx => ha x (by simp [hx])) ?_⟩
      · intro y hy
        rcases ha op (by simp) with ⟨u, i, rfl⟩ | ⟨a, n, rfl⟩
        · rcases ha y (by simp [hy]) with ⟨u, i, rfl⟩ | ⟨a', n', rfl⟩ <;> trivial
        · rcases ha y (by simp [hy]) with ⟨u, i, rfl⟩ | ⟨a', n', rfl⟩
          · trivial
          · simp only [withdrawalsOf, List.map_cons, List.nodup_cons] at hw
            intro e
            apply hw.1
            rw [e]
            clear hw ih ha e
            induction ops with
            | nil => cases hy
            | cons z zs ih =>
              rcases List.mem_cons.mp hy with rfl | hy'
              · simp [withdrawalsOf]
              · cases z <;> simp only [withdrawalsOf, List.map_cons, List.mem_cons] <;>
                  first | exact ih hy' | exact Or.inr (ih hy')
      · rcases ha op (by simp) with ⟨u, i, rfl⟩ | ⟨a, n, rfl⟩
        · simpa only [withdrawalsOf] using hw
        · simp only [withdrawalsOf, List.map_cons, List.nodup_cons] at hw
          exact hw.2

/-- Two inputs and a withdrawal in both orders, then the fee and a signature. -/
example (E : Env) (k : Nat) (seed : Bytes) (u v : Bytes) (a : Address.Single) :
    run E k {} ([.setTtl 9] ++ [.addInput u 1, .addInput v 2, .addWithdrawal a 7] ++ [.calculateFee 2, .sign (.ed seed)]) =
    run E k {} ([.setTtl 9] ++ [.addWithdrawal a 7, .addInput v 2, .addInput u 1] ++ [.calculateFee 2, .sign (.ed seed)]) := by
  refine C78_permutation E k _ _ _ _ ?_ ?_ ?_
  · exact (List.reverse_perm [Op.addInput u 1, Op.addInput v 2, Op.addWithdrawal a 7]).symm
  · simp
  · simp [withdrawalsOf]

/-- From one address the last amount wins. -/
example (E : Env) : ∃ b b', run E 0 {} [.addWithdrawal ⟨0xE1, List.replicate 28 1⟩ 5, .addWithdrawal ⟨0xE1, List.replicate 28 1⟩ 6] = some b ∧
    run E 0 {} [.addWithdrawal ⟨0xE1, List.replicate 28 1⟩ 6, .addWithdrawal ⟨0xE1, List.replicate 28 1⟩ 5] = some b' ∧
    b.tx.body ≠ b'.tx.body :=
  ⟨_, _, rfl, rfl, by decide +kernel⟩

end Cardano.BabbageBuilder
