import Verif.Props.TxBuilder
import Mathlib.Data.List.Perm.Basic

/-! # C48 and C51: order of calls, totals

`src/shelley/transaction.cpp:56-105, 315-403`. -/

namespace Cardano.TxBuilder

open Cardano Cardano.Ledger Cardano.Address Cardano.Spec.TxBuilder Cardano.Spec.Ledger

/-! ## Order lemmas -/

theorem setInsert_comm {α : Type} {lt : α → α → Bool} (o : StrictTotal lt) (x y : α) (l : List α) (h : StrictSorted lt l) :
    setInsert lt x (setInsert lt y l) = setInsert lt y (setInsert lt x l) := by
  have hy := setInsert_sorted o y l h
  have hx := setInsert_sorted o x l h
  refine sorted_ext o _ _ (setInsert_sorted o x _ hy) (setInsert_sorted o y _ hx) fun z => ?_
  simp only [mem_setInsert o]
  tauto

theorem mapAssign_comm {κ α : Type} {lt : κ → κ → Bool} (o : StrictTotal lt) (x y : κ) (v w : α) (l : List (κ × α))
    (hxy : x ≠ y) (h : StrictSorted lt (l.map (·.1))) :
    mapAssign lt x v (mapAssign lt y w l) = mapAssign lt y w (mapAssign lt x v l) := by
  have hy := mapAssign_sorted o y w l h
  have hx := mapAssign_sorted o x v l h
  refine map_ext o _ _ (mapAssign_sorted o x v _ hy) (mapAssign_sorted o y w _ hx) fun e => ?_
  simp only [mem_mapAssign o _ _ _ hy, mem_mapAssign o _ _ _ hx, mem_mapAssign o _ _ _ h]
  constructor
  · rintro (rfl | ⟨rfl | ⟨h1, h2⟩, h3⟩)
    · exact Or.inr ⟨Or.inl rfl, hxy⟩
    · exact Or.inl rfl
    · exact Or.inr ⟨Or.inr ⟨h1, h3⟩, h2⟩
  · rintro (rfl | ⟨rfl | ⟨h1, h2⟩, h3⟩)
    · exact Or.inr ⟨Or.inl rfl, hxy.symm⟩
    · exact Or.inl rfl
    · exact Or.inr ⟨Or.inr ⟨h1, h3⟩, h2⟩

/-- A sequence of assignments leaves the last value of every key. -/
theorem foldl_mapAssign (l : List (Bytes × Nat)) : ∀ m : List (Bytes × Nat), StrictSorted bytesLt (m.map (·.1)) →
    StrictSorted bytesLt ((l.foldl (fun m e => mapAssign bytesLt e.1 e.2 m) m).map (·.1)) ∧
    ∀ e, e ∈ l.foldl (fun m e => mapAssign bytesLt e.1 e.2 m) m ↔
      lastFor e.1 l = some e.2 ∨ (lastFor e.1 l = none ∧ e ∈ m) := by
  induction l with
  | nil => intro m hm; simp [hm, lastFor]
  | cons x l ih =>
    intro m hm
    obtain ⟨a, n⟩ := x
    obtain ⟨h1, h2⟩ := ih (mapAssign bytesLt a n m) (mapAssign_sorted bytesLt_order a n m hm)
    refine ⟨h1, fun e => ?_⟩
    rw [List.foldl_cons, h2 e, mem_mapAssign bytesLt_order _ _ _ hm]
    obtain ⟨a', n'⟩ := e
    simp only [lastFor]
    cases hl : lastFor a' l with
    | some v => simp
    | none =>
      by_cases ha : a = a'
      · subst ha
        simp [eq_comm]
      · rw [if_neg ha]
        simp [show ¬ a' = a from fun e => ha e.symm]

theorem addMixed_comm (t : Int) (n m : Nat) : addMixed (addMixed t n) m = addMixed (addMixed t m) n := by
  unfold addMixed
  rw [u64_i64, u64_i64]
  exact i64_mod _ _ (by omega)

theorem run_append (E : Env) (k : Nat) (ops ops' : List Op) : ∀ b, run E k b (ops ++ ops') =
    match run E k b ops with
    | none => none
    | some b' => run E k b' ops' := by
  induction ops with
  | nil => intro b; rfl
  | cons op ops ih =>
    intro b
    rw [List.cons_append, run, run]
    split <;> simp_all

/-! ## C48 -/

/-- The builder's sets are sorted. -/
def Sorted (b : Builder) : Prop :=
  StrictSorted TxIn.lt b.tx.body.inputs ∧ StrictSorted bytesLt (b.tx.body.withdrawals.map (·.1))

theorem run_sorted (E : Env) (k : Nat) (ops : List Op) (b b' : Builder) (hb : Sorted b) (h : run E k b ops = some b') :
    Sorted b' := by
  obtain ⟨g1, g2, -⟩ := run_facts E k ops b b' h
  refine ⟨?_, ?_⟩
  · rw [g1]; exact (foldl_setInsert txInLt_order _ _ hb.1).1
  · rw [g2]; exact (foldl_mapAssign _ _ hb.2).1

theorem sorted_empty : Sorted {} := ⟨List.Pairwise.nil, List.Pairwise.nil⟩

/-- **C48**: the body, its bytes and the id depend only on *which* inputs were added, on the
last withdrawal for each address, on the sequences of outputs and certificates and on the
last fee and time to live — not on the order in which different kinds of calls were made, on
repeated inputs, on witnesses or on anything else. -/
theorem C48_body_determined (E : Env) (k k' : Nat) (ops ops' : List Op) (b b' : Builder)
    (h : run E k {} ops = some b) (h' : run E k' {} ops' = some b')
    (hn : NoComputedFee ops) (hn' : NoComputedFee ops')
    (hi : ∀ i, i ∈ (inputsOf ops).map spends ↔ i ∈ (inputsOf ops').map spends)
    (hw : ∀ a, lastFor a (withdrawalsOf ops) = lastFor a (withdrawalsOf ops'))
    (ho : outputsOf ops = outputsOf ops')
    (hc : (certsOf ops).map (·.1) = (certsOf ops').map (·.1))
    (hf : feeOf ops = feeOf ops') (ht : ttlOf ops = ttlOf ops') :
    b.tx.body = b'.tx.body ∧ b.tx.body.serialize = b'.tx.body.serialize ∧ getID E b = getID E b' := by
  obtain ⟨g1, g2, g3, g4, g5, g6, -, -, g9⟩ := run_facts E k ops {} b h
  obtain ⟨f1, f2, f3, f4, f5, f6, -, -, f9⟩ := run_facts E k' ops' {} b' h'
  have key : b.tx.body = b'.tx.body := by
    have e1 : b.tx.body.inputs = b'.tx.body.inputs := by
      have s1 := foldl_setInsert txInLt_order ((inputsOf ops).map spends) [] List.Pairwise.nil
      have s2 := foldl_setInsert txInLt_order ((inputsOf ops').map spends) [] List.Pairwise.nil
      rw [g1, f1]
      exact sorted_ext txInLt_order _ _ s1.1 s2.1 fun i => by rw [s1.2, s2.2, hi]
    have e2 : b.tx.body.withdrawals = b'.tx.body.withdrawals := by
      have s1 := foldl_mapAssign (withdrawalsOf ops) [] List.Pairwise.nil
      have s2 := foldl_mapAssign (withdrawalsOf ops') [] List.Pairwise.nil
      rw [g2, f2]
      exact map_ext bytesLt_order _ _ s1.1 s2.1 fun e => by rw [s1.2, s2.2, hw]
    have e3 : b.tx.body.certificates = b'.tx.body.certificates := by rw [g3, f3, hc]
    have e4 : b.tx.body.ttl = b'.tx.body.ttl := by rw [g4, f4, ht]
    have e5 : b.tx.body.metadataHash = b'.tx.body.metadataHash := by rw [g5, f5]
    have e6 : b.tx.body.update = b'.tx.body.update := by rw [g6, f6]
    have e7 : b.tx.body.outputs = b'.tx.body.outputs := by rw [(g9 hn).1, (f9 hn').1, ho]
    have e8 : b.tx.body.fee = b'.tx.body.fee := by rw [(g9 hn).2, (f9 hn').2, hf]
    revert e1 e2 e3 e4 e5 e6 e7 e8
    generalize b.tx.body = x
    generalize b'.tx.body = y
    intros
    cases x; cases y
    simp_all
  exact ⟨key, by rw [key], by rw [getID, getID, key]⟩

/-- A call that adds an input or a withdrawal. -/
def isAdder : Op → Bool
  | .addInput _ | .addWithdrawal .. => true
  | _ => false

/-- The two calls do not withdraw from the same address. -/
def compatible : Op → Op → Prop
  | .addWithdrawal a _, .addWithdrawal a' _ => a.toBytes ≠ a'.toBytes
  | _, _ => True

theorem swap_adders (E : Env) (k : Nat) (b : Builder) (x y : Op) (ops : List Op) (hb : Sorted b)
    (hx : isAdder x = true) (hy : isAdder y = true) (hxy : compatible x y) :
    run E k b (x :: y :: ops) = run E k b (y :: x :: ops) := by
  cases x <;> simp only [isAdder, Bool.false_eq_true] at hx <;>
    cases y <;> simp only [isAdder, Bool.false_eq_true] at hy
  case addInput.addInput u v =>
    simp only [run, step, addInput]
    by_cases hu : u.id.length < 32 <;> by_cases hv : v.id.length < 32 <;>
      simp only [hu, hv, if_true, if_false]
    congr 1
    simp only [setBody, clearWitnessSet]
    rw [setInsert_comm txInLt_order _ _ _ hb.1, addMixed_comm]
  case addInput.addWithdrawal u a n =>
    simp only [run, step, addInput]
    by_cases hu : u.id.length < 32 <;> simp only [hu, if_true, if_false]
    congr 1
    simp only [setBody, clearWitnessSet, addWithdrawal]
    rw [addMixed_comm]
  case addWithdrawal.addInput a n u =>
    simp only [run, step, addInput]
    by_cases hu : u.id.length < 32 <;> simp only [hu, if_true, if_false]
    congr 1
    simp only [setBody, clearWitnessSet, addWithdrawal]
    rw [addMixed_comm]
  case addWithdrawal.addWithdrawal a n a' n' =>
    simp only [run, step]
    congr 1
    simp only [setBody, clearWitnessSet, addWithdrawal]
    rw [mapAssign_comm bytesLt_order _ _ _ _ _ (fun e => hxy e.symm) hb.2, addMixed_comm]

theorem perm_adders (E : Env) (k : Nat) {ops ops' : List Op} (hp : ops.Perm ops') (post : List Op) :
    ∀ b, Sorted b → (∀ op ∈ ops, isAdder op = true) → ops.Pairwise compatible →
      run E k b (ops ++ post) = run E k b (ops' ++ post) := by
  have sym : ∀ x y, compatible x y → compatible y x := by
    intro x y h
    cases x <;> cases y <;> simp_all [compatible]
    exact fun e => h e.symm
  induction hp with
  | nil => intros; rfl
  | cons x p ih =>
    intro b hb ha hc
    simp only [List.cons_append, run]
    split
    · rfl
    · rfl
    · rename_i b1 o _ hst
      have h1 : run E k b [x] = some b1 := by
        simp only [run, hst]
      exact ih b1 (run_sorted E k [x] b b1 hb h1) (fun op hop => ha op (by simp [hop])) (List.pairwise_cons.mp hc).2
  | swap x y l =>
    intro b hb ha hc
    have := (List.pairwise_cons.mp hc).1 x (by simp)
    exact swap_adders E k b y x (l ++ post) hb (ha y (by simp)) (ha x (by simp)) this
  | trans p q ih1 ih2 =>
    intro b hb ha hc
    rw [ih1 b hb ha hc]
    exact ih2 b hb (fun op hop => ha op (p.mem_iff.mpr hop)) ((p.pairwise_iff (fun {x y} => sym x y)).mp hc)

/-- **C48**: adding the same inputs and withdrawals in any order gives the same builder, and
so the same body bytes and id, anywhere in any history: also if fees are computed, the
transaction is balanced and signed afterwards. -/
theorem C48_permutation (E : Env) (k : Nat) (pre ops ops' post : List Op) (hp : ops.Perm ops')
    (ha : ∀ op ∈ ops, (∃ u, op = .addInput u) ∨ ∃ a n, op = .addWithdrawal a n)
    (hw : ((withdrawalsOf ops).map (·.1)).Nodup) :
    run E k {} (pre ++ ops ++ post) = run E k {} (pre ++ ops' ++ post) := by
  rw [List.append_assoc, List.append_assoc, run_append E k pre, run_append E k pre]
  cases h : run E k {} pre with
  | none => rfl
  | some b =>
    refine perm_adders E k hp post b (run_sorted E k pre {} b sorted_empty h) ?_ ?_
    · intro op hop
      rcases ha op hop with ⟨u, rfl⟩ | ⟨a, n, rfl⟩ <;> rfl
    · clear h hp
      induction ops with
      | nil => exact List.Pairwise.nil
      | cons op ops ih =>
        refine List.pairwise_cons.mpr ⟨?_, ih (fun x hx => ha x (by simp [hx])) ?_⟩
        · intro y hy
          rcases ha op (by simp) with ⟨u, rfl⟩ | ⟨a, n, rfl⟩
          · trivial
          · rcases ha y (by simp [hy]) with ⟨u, rfl⟩ | ⟨a', n', rfl⟩
            · trivial
            · simp only [withdrawalsOf, List.map_cons, List.nodup_cons] at hw
              intro e
              apply hw.1
              rw [e]
              clear hw ih ha e
              induction ops with
              | nil => cases hy
              | cons z zs ih =>
                rcases List.mem_cons.mp hy with rfl | hy'
                · simp [withdrawalsOf]
                · cases z <;> simp only [withdrawalsOf, List.map_cons, List.mem_cons] <;>
                    first | exact ih hy' | exact Or.inr (ih hy')
        · rcases ha op (by simp) with ⟨u, rfl⟩ | ⟨a, n, rfl⟩
          · exact hw
          · simp only [withdrawalsOf, List.map_cons, List.nodup_cons] at hw
            exact hw.2

/-- **C48**: signing changes neither the body bytes nor the id. -/
theorem C48_sign_keeps_id (E : Env) (b : Builder) (key : SKey) :
    (sign E b key).1.tx.body = b.tx.body ∧ getID E (sign E b key).1 = getID E b := by
  have e : (sign E b key).1.tx.body = b.tx.body :=
    other_body E 0 b _ (.sign key) (sign E b key).2 rfl rfl (by simp [step])
  exact ⟨e, by rw [getID, getID, e]⟩

/-- Without distinct addresses the order of withdrawals matters: the last amount wins. -/
example (E : Env) : ∃ b b', run E 0 {} [.addWithdrawal ⟨0, List.replicate 28 1⟩ 5, .addWithdrawal ⟨0, List.replicate 28 1⟩ 6] = some b ∧
    run E 0 {} [.addWithdrawal ⟨0, List.replicate 28 1⟩ 6, .addWithdrawal ⟨0, List.replicate 28 1⟩ 5] = some b' ∧
    b.tx.body ≠ b'.tx.body :=
  ⟨_, _, rfl, rfl, by decide +kernel⟩

/-- Two inputs and a withdrawal in both orders, then balancing and signing. -/
example (E : Env) (k : Nat) (seed : Bytes) (u v : UTxO) (a : Single) :
    run E k {} ([.setTtl 9] ++ [.addInput u, .addInput v, .addWithdrawal a 7] ++ [.balance 2 true, .sign (.ed seed)]) =
    run E k {} ([.setTtl 9] ++ [.addWithdrawal a 7, .addInput v, .addInput u] ++ [.balance 2 true, .sign (.ed seed)]) := by
  refine C48_permutation E k _ _ _ _ ?_ ?_ ?_
  · exact (List.reverse_perm [Op.addInput u, .addInput v, .addWithdrawal a 7]).symm
  · simp
  · simp [withdrawalsOf]

/-! ## C51 -/

/-- **C51**: the totals the builder keeps, after any history: the sum over all *calls*, in
64-bit arithmetic. -/
theorem C51_totals (E : Env) (k : Nat) (ops : List Op) (b : Builder) (h : run E k {} ops = some b) :
    b.inputTotal = i64 (addedSum ops) ∧ b.depositTotal = i64 (depositSum ops) := by
  obtain ⟨-, -, -, -, -, -, g7, g8, -⟩ := run_facts E k ops {} b h
  have h7 := g7 0 rfl
  have h8 := g8 0 rfl
  rw [Nat.zero_add] at h7 h8
  exact ⟨h7, h8⟩

theorem sum_perm {l m : List Nat} (h : l.Perm m) : l.sum = m.sum := h.sum_nat

theorem lastFor_mem (a : Bytes) (n : Nat) (l : List (Bytes × Nat)) (h : lastFor a l = some n) : (a, n) ∈ l := by
  induction l with
  | nil => cases h
  | cons e l ih =>
    obtain ⟨a', m⟩ := e
    simp only [lastFor] at h
    cases hl : lastFor a l with
    | some v => rw [hl] at h; simp only [Option.some.injEq] at h; subst h; simp [ih hl]
    | none =>
      rw [hl] at h
      by_cases ha : a' = a
      · simp only [if_pos ha, Option.some.injEq] at h; subst h; subst ha; simp
      · simp [if_neg ha] at h

theorem lastFor_of_mem (a : Bytes) (n : Nat) (l : List (Bytes × Nat)) (hd : (l.map (·.1)).Nodup) (h : (a, n) ∈ l) :
    lastFor a l = some n := by
  induction l with
  | nil => cases h
  | cons e l ih =>
    obtain ⟨a', m⟩ := e
    simp only [List.map_cons, List.nodup_cons] at hd
    simp only [lastFor]
    rcases List.mem_cons.mp h with he | he
    · simp only [Prod.mk.injEq] at he
      obtain ⟨rfl, rfl⟩ := he
      cases hl : lastFor a l with
      | some v => exact absurd (List.mem_map_of_mem (f := (·.1)) (lastFor_mem a v l hl)) hd.1
      | none => simp
    · rw [ih hd.2 he]

theorem nodup_of_map {α β} (f : α → β) {l : List α} (h : (l.map f).Nodup) : l.Nodup :=
  (List.pairwise_map.mp h).imp fun hne e => hne (congrArg f e)

/-- **C51**, for histories that add every input and every withdrawal address once, with
values that agree with the ledger and sums that fit in 63 bits: the running totals are the
sums over the body.  Missing: histories that repeat an input or a withdrawal address, for
which the claim is false (`C51_duplicate_input`, `C51_repeated_withdrawal`), and builders made
from an existing transaction (`C51_fromCBOR`). -/
theorem C51_partial (E : Env) (k : Nat) (ops : List Op) (b : Builder) (utxo : TxIn → Nat) (h : run E k {} ops = some b)
    (hv : ∀ u ∈ inputsOf ops, u.value = utxo (spends u))
    (hi : ((inputsOf ops).map spends).Nodup) (hw : ((withdrawalsOf ops).map (·.1)).Nodup)
    (hs : addedSum ops < 2 ^ 63) (hd : depositSum ops < 2 ^ 63) :
    b.inputTotal = (inputSum utxo b.tx.body.inputs + withdrawalSum b.tx.body.withdrawals : Nat) ∧
    b.depositTotal = (depositSum ops : Nat) := by
  obtain ⟨g1, g2, -⟩ := run_facts E k ops {} b h
  obtain ⟨t1, t2⟩ := C51_totals E k ops b h
  have small : ∀ n : Nat, n < 2 ^ 63 → i64 n = n := by
    intro n hn
    unfold i64
    rw [Nat.mod_eq_of_lt (by omega), if_pos hn]
  rw [t1, t2, small _ hs, small _ hd]
  refine ⟨?_, rfl⟩
  congr 1
  have s1 := foldl_setInsert txInLt_order ((inputsOf ops).map spends) [] List.Pairwise.nil
  have s2 := foldl_mapAssign (withdrawalsOf ops) [] List.Pairwise.nil
  have p1 : b.tx.body.inputs.Perm ((inputsOf ops).map spends) := by
    rw [g1]
    refine (List.perm_ext_iff_of_nodup (sorted_nodup txInLt_order _ s1.1) hi).mpr fun x => ?_
    rw [s1.2]; simp
  have p2 : b.tx.body.withdrawals.Perm (withdrawalsOf ops) := by
    rw [g2]
    refine (List.perm_ext_iff_of_nodup (nodup_of_map _ (sorted_nodup bytesLt_order _ s2.1)) (nodup_of_map _ hw)).mpr
      fun x => ?_
    rw [s2.2]
    constructor
    · rintro (hx | ⟨-, hx⟩)
      · exact lastFor_mem _ _ _ hx
      · cases hx
    · intro hx
      exact Or.inl (lastFor_of_mem x.1 x.2 _ hw hx)
  unfold addedSum inputSum withdrawalSum
  rw [sum_perm (p1.map utxo), sum_perm (p2.map (·.2)), List.map_map]
  congr 2
  exact List.map_congr_left fun u hu => hv u hu

theorem sum_repeats (f : TxIn → Nat) : ∀ (l D : List TxIn), D.Nodup → (∀ x, x ∈ D ↔ x ∈ l) →
    (D.map f).sum ≤ (l.map f).sum ∧
      ((D.map f).sum = (l.map f).sum ↔ ∀ pre x post, l = pre ++ x :: post → x ∈ post → f x = 0) := by
  intro l
  induction l with
  | nil =>
    intro D _ hm
    have : D = [] := List.eq_nil_iff_forall_not_mem.mpr fun x hx => absurd ((hm x).mp hx) (by simp)
    subst this
    exact ⟨Nat.le_refl _, fun _ pre x post e => absurd e (by simp), fun _ => rfl⟩
  | cons y l ih =>
    intro D hd hm
    by_cases hy : y ∈ l
    · obtain ⟨h1, h2⟩ := ih D hd fun x => by
        rw [hm]; constructor
        · intro h; rcases List.mem_cons.mp h with rfl | h <;> assumption
        · exact List.mem_cons_of_mem _
      simp only [List.map_cons, List.sum_cons]
      refine ⟨by omega, fun he pre x post hl hx => ?_, fun hall => ?_⟩
      · have h0 : f y = 0 := by omega
        cases pre with
        | nil => simp only [List.nil_append, List.cons.injEq] at hl; rw [← hl.1]; exact h0
        | cons p pre =>
          simp only [List.cons_append, List.cons.injEq] at hl
          exact h2.mp (by omega) pre x post hl.2 hx
      · have h0 := hall [] y l rfl hy
        have := h2.mpr fun pre x post hl hx => hall (y :: pre) x post (by rw [hl]; rfl) hx
        omega
    · have hyD : y ∈ D := (hm y).mpr (by simp)
      have hp : D.Perm (y :: D.erase y) := List.perm_cons_erase hyD
      obtain ⟨h1, h2⟩ := ih (D.erase y) (hd.erase y) fun x => by
        rw [hd.mem_erase_iff, hm]
        constructor
        · rintro ⟨a, b⟩; exact (List.mem_cons.mp b).resolve_left a
        · intro h; exact ⟨fun e => hy (e ▸ h), List.mem_cons_of_mem _ h⟩
      have hs := sum_perm (hp.map f)
      simp only [List.map_cons, List.sum_cons] at hs ⊢
      refine ⟨by omega, fun he pre x post hl hx => ?_, fun hall => ?_⟩
      · cases pre with
        | nil =>
          simp only [List.nil_append, List.cons.injEq] at hl
          obtain ⟨rfl, rfl⟩ := hl
          exact absurd hx hy
        | cons p pre =>
          simp only [List.cons_append, List.cons.injEq] at hl
          exact h2.mp (by omega) pre x post hl.2 hx
      · have := h2.mpr fun pre x post hl hx => hall (y :: pre) x post (by rw [hl]; rfl) hx
        omega

theorem lastFor_isSome (a : Bytes) (l : List (Bytes × Nat)) : (∃ v, lastFor a l = some v) ↔ a ∈ l.map (·.1) := by
  induction l with
  | nil => simp [lastFor]
  | cons e l ih =>
    obtain ⟨a', m⟩ := e
    simp only [lastFor, List.map_cons, List.mem_cons]
    cases hl : lastFor a l with
    | some v => simp [← ih, hl]
    | none =>
      rw [← ih]
      by_cases ha : a' = a
      · simp [ha]
      · simp [if_neg ha, hl, Ne.symm ha]

theorem sum_replaced : ∀ (l D : List (Bytes × Nat)), (D.map (·.1)).Nodup → (∀ x, x ∈ D ↔ lastFor x.1 l = some x.2) →
    (D.map (·.2)).sum ≤ (l.map (·.2)).sum ∧
      ((D.map (·.2)).sum = (l.map (·.2)).sum ↔ ∀ pre a n post, l = pre ++ (a, n) :: post → a ∈ post.map (·.1) → n = 0) := by
  intro l
  induction l with
  | nil =>
    intro D _ hm
    have : D = [] := List.eq_nil_iff_forall_not_mem.mpr fun x hx => absurd ((hm x).mp hx) (by simp [lastFor])
    subst this
    exact ⟨Nat.le_refl _, fun _ pre a n post e => absurd e (by simp), fun _ => rfl⟩
  | cons y l ih =>
    obtain ⟨a, n⟩ := y
    intro D hd hm
    by_cases hy : a ∈ l.map (·.1)
    · obtain ⟨v, hv⟩ := (lastFor_isSome a l).mpr hy
      obtain ⟨h1, h2⟩ := ih D hd fun x => by
        rw [hm]
        simp only [lastFor]
        cases hl : lastFor x.1 l with
        | some w => simp
        | none =>
          have : a ≠ x.1 := fun e => by rw [← e, hv] at hl; cases hl
          simp [this]
      simp only [List.map_cons, List.sum_cons]
      refine ⟨by omega, fun he pre b m post hl hx => ?_, fun hall => ?_⟩
      · have h0 : n = 0 := by omega
        cases pre with
        | nil =>
          simp only [List.nil_append, List.cons.injEq, Prod.mk.injEq] at hl
          rw [← hl.1.2]; exact h0
        | cons p pre =>
          simp only [List.cons_append, List.cons.injEq] at hl
          exact h2.mp (by omega) pre b m post hl.2 hx
      · have h0 := hall [] a n l rfl hy
        have := h2.mpr fun pre b m post hl hx => hall ((a, n) :: pre) b m post (by rw [hl]; rfl) hx
        omega
    · have hnone : lastFor a l = none := by
        cases hl : lastFor a l with
        | none => rfl
        | some v => exact absurd ((lastFor_isSome a l).mp ⟨v, hl⟩) hy
      have hyD : (a, n) ∈ D := (hm (a, n)).mpr (by simp [lastFor, hnone])
      have hp : D.Perm ((a, n) :: D.erase (a, n)) := List.perm_cons_erase hyD
      have hk := (hp.map (·.1)).nodup hd
      simp only [List.map_cons, List.nodup_cons] at hk
      obtain ⟨h1, h2⟩ := ih (D.erase (a, n)) hk.2 fun x => by
        rw [(nodup_of_map _ hd).mem_erase_iff, hm]
        simp only [lastFor]
        constructor
        · rintro ⟨g1, g2⟩
          cases hl : lastFor x.1 l with
          | some w => rw [hl] at g2; exact g2
          | none =>
            rw [hl] at g2
            by_cases ha : a = x.1
            · simp only [ha, if_true, Option.some.injEq] at g2
              exact absurd (Prod.ext ha.symm g2.symm) g1
            · simp [ha] at g2
        · intro g
          refine ⟨fun e => ?_, by rw [g]⟩
          subst e
          rw [hnone] at g; cases g
      have hs := sum_perm (hp.map (·.2))
      simp only [List.map_cons, List.sum_cons] at hs ⊢
      refine ⟨by omega, fun he pre b m post hl hx => ?_, fun hall => ?_⟩
      · cases pre with
        | nil =>
          simp only [List.nil_append, List.cons.injEq, Prod.mk.injEq] at hl
          obtain ⟨⟨rfl, rfl⟩, rfl⟩ := hl
          exact absurd hx hy
        | cons p pre =>
          simp only [List.cons_append, List.cons.injEq] at hl
          exact h2.mp (by omega) pre b m post hl.2 hx
      · have := h2.mpr fun pre b m post hl hx => hall ((a, n) :: pre) b m post (by rw [hl]; rfl) hx
        omega

/-- **C51**, exactly: the builder's input total is never below the sum over the body's inputs and
withdrawals, and equals it if and only if every input that is added again later is worth nothing and every
withdrawal that is replaced later was for nothing. -/
theorem C51_iff (E : Env) (k : Nat) (ops : List Op) (b : Builder) (utxo : TxIn → Nat) (h : run E k {} ops = some b)
    (hv : ∀ u ∈ inputsOf ops, u.value = utxo (spends u)) (hs : addedSum ops < 2 ^ 63) :
    ((inputSum utxo b.tx.body.inputs + withdrawalSum b.tx.body.withdrawals : Nat) : Int) ≤ b.inputTotal ∧
    (b.inputTotal = (inputSum utxo b.tx.body.inputs + withdrawalSum b.tx.body.withdrawals : Nat) ↔
      (∀ pre i post, (inputsOf ops).map spends = pre ++ i :: post → i ∈ post → utxo i = 0) ∧
      ∀ pre a n post, withdrawalsOf ops = pre ++ (a, n) :: post → a ∈ post.map (·.1) → n = 0) := by
  obtain ⟨g1, g2, -⟩ := run_facts E k ops {} b h
  obtain ⟨t1, -⟩ := C51_totals E k ops b h
  have small : i64 (addedSum ops) = addedSum ops := by
    unfold i64
    rw [Nat.mod_eq_of_lt (by omega), if_pos hs]
  rw [t1, small]
  have s1 := foldl_setInsert txInLt_order ((inputsOf ops).map spends) [] List.Pairwise.nil
  have s2 := foldl_mapAssign (withdrawalsOf ops) [] List.Pairwise.nil
  obtain ⟨a1, a2⟩ := sum_repeats utxo ((inputsOf ops).map spends) b.tx.body.inputs
    (by rw [g1]; exact sorted_nodup txInLt_order _ s1.1) (by intro x; rw [g1, s1.2]; simp)
  obtain ⟨b1, b2⟩ := sum_replaced (withdrawalsOf ops) b.tx.body.withdrawals
    (by rw [g2]; exact sorted_nodup bytesLt_order _ s2.1) (by
      intro x; rw [g2, s2.2]
      constructor
      · rintro (hx | ⟨-, hx⟩)
        · exact hx
        · cases hx
      · exact Or.inl)
  have e1 : (((inputsOf ops).map spends).map utxo).sum = ((inputsOf ops).map (·.value)).sum := by
    rw [List.map_map]
    exact congrArg List.sum (List.map_congr_left fun u hu => (hv u hu).symm)
  rw [e1] at a1 a2
  unfold addedSum inputSum withdrawalSum
  rw [← a2, ← b2]
  refine ⟨by omega, ?_⟩
  constructor
  · intro e; constructor <;> omega
  · rintro ⟨e1, e2⟩; rw [e1, e2]

/-- A history meeting the hypotheses of `C51_partial`. -/
example (E : Env) : ∃ b, run E 0 {} [.addInput ⟨List.replicate 32 1, 0, 5000000⟩, .addInput ⟨List.replicate 32 1, 1, 7⟩,
      .addWithdrawal ⟨0, List.replicate 28 1⟩ 3] = some b ∧ b.inputTotal = 5000010 ∧
      b.tx.body.inputs = [⟨List.replicate 32 1, 0⟩, ⟨List.replicate 32 1, 1⟩] :=
  ⟨_, rfl, by decide +kernel, by decide +kernel⟩

/-- **C51** fails: adding the same input twice spends it once but counts it twice. -/
theorem C51_duplicate_input (E : Env) (k : Nat) (u : UTxO) (hu : 32 ≤ u.id.length) :
    ∃ b, run E k {} [.addInput u, .addInput u] = some b ∧
      b.tx.body.inputs = [⟨u.id.take 32, u.index⟩] ∧ b.inputTotal = i64 (u.value + u.value) := by
  have hn : ¬ u.id.length < 32 := by omega
  have hr : ∃ b, run E k {} [.addInput u, .addInput u] = some b := by
    simp [run, step, addInput, hn]
  obtain ⟨b, hb⟩ := hr
  obtain ⟨g1, -⟩ := run_facts E k _ {} b hb
  obtain ⟨t1, -⟩ := C51_totals E k _ b hb
  refine ⟨b, hb, ?_, ?_⟩
  · rw [g1]
    simp [inputsOf, hn, setInsert, txInLt_order.irrefl, spends]
  · rw [t1]
    simp [addedSum, inputsOf, hn, withdrawalsOf]

/-- **C51** fails: a second withdrawal for an address replaces the first in the body, but both
are counted. -/
theorem C51_repeated_withdrawal (E : Env) (k : Nat) (a : Single) (n m : Nat) :
    ∃ b, run E k {} [.addWithdrawal a n, .addWithdrawal a m] = some b ∧
      b.tx.body.withdrawals = [(a.toBytes, m)] ∧ b.inputTotal = i64 (n + m) := by
  have hr : ∃ b, run E k {} [.addWithdrawal a n, .addWithdrawal a m] = some b := by simp [run, step]
  obtain ⟨b, hb⟩ := hr
  obtain ⟨-, g2, -⟩ := run_facts E k _ {} b hb
  obtain ⟨t1, -⟩ := C51_totals E k _ b hb
  refine ⟨b, hb, ?_, ?_⟩
  · rw [g2]
    simp [withdrawalsOf, mapAssign, bytesLt_order.irrefl]
  · rw [t1]
    simp [addedSum, inputsOf, withdrawalsOf]

/-- **C51** fails for a builder made from bytes: the totals are zero whatever the transaction
withdraws, so e.g. the withdrawals are not counted. -/
theorem C51_fromCBOR (bytes : Bytes) (b : Builder) (h : fromCBOR bytes = .ok b) :
    b.inputTotal = 0 ∧ b.depositTotal = 0 := by
  obtain ⟨t, -, h2⟩ := Out.bind_eq_ok.mp h
  injection h2 with h2
  subst h2
  exact ⟨rfl, rfl⟩

end Cardano.TxBuilder
