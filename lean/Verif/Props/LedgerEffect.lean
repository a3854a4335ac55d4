import Verif.Spec.LedgerEffect
import Verif.Props.Wallet

/-! # C97: what was asked for happens on the ledger -/

namespace Cardano.Spec.Wallet

open Cardano Cardano.Ledger Cardano.TxBuilder Cardano.Spec.TxBuilder Cardano.Spec.LedgerRules

/-- The pool a stake key (hash) should be delegated to: the last one asked for, none after a deregistration. -/
def delegationAsked (h : Bytes) : List Op → Option Bytes → Option Bytes
  | [], p => p
  | .stakeDelegation a q :: ops, p => delegationAsked h ops (if a.key.take 28 = h then some q else p)
  | .stakeDeregistration a :: ops, p => delegationAsked h ops (if a.key.take 28 = h then none else p)
  | _ :: ops, p => delegationAsked h ops p

/-- The balance of the reward account of a stake key: zero after its registration, no account after its deregistration. -/
def accountAsked (h : Bytes) : List Op → Option Nat → Option Nat
  | [], x => x
  | .stakeRegistration a _ :: ops, x => accountAsked h ops (if a.key.take 28 = h then some 0 else x)
  | .stakeDeregistration a :: ops, x => accountAsked h ops (if a.key.take 28 = h then none else x)
  | _ :: ops, x => accountAsked h ops x

/-- The announced retirement of a registered pool: the last one asked for, withdrawn by registering the pool again. -/
def retirementAsked (p : Bytes) : List Op → Option Nat → Option Nat
  | [], r => r
  | .poolRetirement q e :: ops, r => retirementAsked p ops (if q = p then some e else r)
  | .poolRegistration q _ :: ops, r => retirementAsked p ops (if q.operator = p then none else r)
  | _ :: ops, r => retirementAsked p ops r

/-- The registrations asked for, for one pool. -/
def registrationsOf (p : Bytes) : List Op → List PoolParams
  | [] => []
  | .poolRegistration q _ :: ops => if q.operator = p then q :: registrationsOf p ops else registrationsOf p ops
  | _ :: ops => registrationsOf p ops

end Cardano.Spec.Wallet

namespace Cardano.TxBuilder

open Cardano Cardano.Ed Cardano.Ledger Cardano.Address Cardano.Spec.TxBuilder Cardano.Spec.LedgerRules Cardano.Spec.Wallet

/-! ## Histories and bodies -/

theorem hist_append (ops ops' : List Op) : inputsOf (ops ++ ops') = inputsOf ops ++ inputsOf ops' ∧
    withdrawalsOf (ops ++ ops') = withdrawalsOf ops ++ withdrawalsOf ops' ∧ certsOf (ops ++ ops') = certsOf ops ++ certsOf ops' := by
  induction ops with
  | nil => exact ⟨rfl, rfl, rfl⟩
  | cons op ops ih =>
    obtain ⟨h1, h2, h3⟩ := ih
    cases op <;> simp only [List.cons_append, inputsOf, withdrawalsOf, certsOf, h1, h2, h3, List.cons_append, and_self]
    split <;> simp

theorem hist_signed (ops : List Op) (n : Nat) (f : Bool) (keys : List SKey) :
    inputsOf (ops ++ .balance n f :: keys.map .sign) = inputsOf ops ∧
    withdrawalsOf (ops ++ .balance n f :: keys.map .sign) = withdrawalsOf ops ∧
    certsOf (ops ++ .balance n f :: keys.map .sign) = certsOf ops := by
  have hs : inputsOf (keys.map .sign) = [] ∧ withdrawalsOf (keys.map .sign) = [] ∧ certsOf (keys.map .sign) = [] := by
    induction keys with
    | nil => exact ⟨rfl, rfl, rfl⟩
    | cons k keys ih => exact ih
  obtain ⟨h1, h2, h3⟩ := hist_append ops (.balance n f :: keys.map .sign)
  rw [h1, h2, h3]
  simp only [inputsOf, withdrawalsOf, certsOf, hs, List.append_nil, and_self]

/-! ## Certificates -/

theorem certRules_pools (sp : StakeParams) (cs : List Certificate) : ∀ (s s' : Stake) (pools : List Bytes),
    (∀ p, p ∈ pools ↔ (s.pools p).isSome) → certRules sp s cs = some s' →
    ∀ p, p ∈ newPools pools cs ++ pools ↔ (s'.pools p).isSome := by
  induction cs with
  | nil =>
    intro s s' pools hp h p
    obtain rfl := Option.some.inj h
    simpa [newPools] using hp p
  | cons c cs ih =>
    intro s s' pools hp h p
    rw [certRules] at h
    obtain ⟨s1, h1, h2⟩ := Option.bind_eq_some_iff.mp h
    have easy : s1.pools = s.pools → newPools pools (c :: cs) = newPools pools cs → (p ∈ newPools pools (c :: cs) ++ pools ↔ (s'.pools p).isSome) := by
      intro e1 e2
      rw [e2]
      exact ih s1 s' pools (by rw [e1]; exact hp) h2 p
    cases c with
    | poolReg q =>
      simp only [certRule] at h1
      split at h1
      · cases h1
      · split at h1
        · rename_i hq
          refine easy (by rw [← Option.some.inj h1]) ?_
          rw [newPools, if_pos ((hp _).mpr hq)]
        · rename_i hq
          have hq' : ¬ q.operator ∈ pools := fun hm => hq ((hp _).mp hm)
          rw [newPools, if_neg hq']
          have := ih s1 s' (q.operator :: pools) (by
            intro x
            rw [← Option.some.inj h1]
            simp only [put, List.mem_cons, hp]
            split <;> simp [*]) h2 p
          rw [← this]
          simp only [List.mem_append, List.mem_cons]
          tauto
    | stakeReg c =>
      obtain ⟨x, -, hx⟩ := Option.bind_eq_some_iff.mp h1
      split at hx
      · exact easy (by rw [← Option.some.inj hx]) rfl
      · cases hx
    | stakeDereg c =>
      obtain ⟨x, -, hx⟩ := Option.bind_eq_some_iff.mp h1
      split at hx
      · exact easy (by rw [← Option.some.inj hx]) rfl
      · cases hx
    | delegation c q =>
      obtain ⟨x, -, hx⟩ := Option.bind_eq_some_iff.mp h1
      split at hx
      · exact easy (by rw [← Option.some.inj hx]) rfl
      · cases hx
    | poolRetire q e =>
      simp only [certRule] at h1
      split at h1
      · exact easy (by rw [← Option.some.inj h1]) rfl
      · cases h1
    | empty => cases h1
    | genesisDeleg a b c => cases h1
    | mir m => cases h1

theorem certRules_staking (sp : StakeParams) (key : Bytes) : ∀ (ops : List Op) (s s' : Stake),
    certRules sp s ((certsOf ops).map (·.1)) = some s' →
    s'.delegatedTo key = delegationAsked key ops (s.delegatedTo key) ∧ s'.rewards key = accountAsked key ops (s.rewards key) := by
  intro ops
  induction ops with
  | nil => intro s s' h; obtain rfl := Option.some.inj h; exact ⟨rfl, rfl⟩
  | cons op ops ih =>
    intro s s' h
    cases op with
    | poolRegistration p d =>
      obtain ⟨s1, h1, h2⟩ := Option.bind_eq_some_iff.mp h
      obtain ⟨g1, g2⟩ := ih s1 s' h2
      simp only [certRule] at h1
      split at h1
      · cases h1
      · split at h1 <;> obtain rfl := Option.some.inj h1 <;> exact ⟨g1, g2⟩
    | poolRetirement p e =>
      obtain ⟨s1, h1, h2⟩ := Option.bind_eq_some_iff.mp h
      obtain ⟨g1, g2⟩ := ih s1 s' h2
      simp only [certRule] at h1
      split at h1
      · obtain rfl := Option.some.inj h1; exact ⟨g1, g2⟩
      · cases h1
    | stakeRegistration a d =>
      obtain ⟨s1, h1, h2⟩ := Option.bind_eq_some_iff.mp h
      obtain ⟨g1, g2⟩ := ih s1 s' h2
      simp only [certRule, credKey, Option.bind_some] at h1
      split at h1
      · obtain rfl := Option.some.inj h1
        refine ⟨g1, ?_⟩
        rw [g2]
        simp only [accountAsked, put, eq_comm (a := key)]
      · cases h1
    | stakeDeregistration a =>
      obtain ⟨s1, h1, h2⟩ := Option.bind_eq_some_iff.mp h
      obtain ⟨g1, g2⟩ := ih s1 s' h2
      simp only [certRule, credKey, Option.bind_some] at h1
      split at h1
      · obtain rfl := Option.some.inj h1
        refine ⟨?_, ?_⟩
        · rw [g1]
          simp only [delegationAsked, put, eq_comm (a := key)]
        · rw [g2]
          simp only [accountAsked, put, eq_comm (a := key)]
      · cases h1
    | stakeDelegation a p =>
      obtain ⟨s1, h1, h2⟩ := Option.bind_eq_some_iff.mp h
      obtain ⟨g1, g2⟩ := ih s1 s' h2
      simp only [certRule, credKey, Option.bind_some] at h1
      split at h1
      · obtain rfl := Option.some.inj h1
        refine ⟨?_, g2⟩
        rw [g1]
        simp only [delegationAsked, put, eq_comm (a := key)]
      · cases h1
    | _ => exact ih s s' h

open Classical in
/-- **C97**, stake keys: what the certificates asked for have done.  Every key is delegated
to the pool named last for it (to none after a deregistration), or as before; accounts are opened with balance 0 and closed as asked;
an account whose rewards were withdrawn has the balance 0, every other its old balance. -/
theorem C97_staking (sp : StakeParams) (ops : List Op) (s s' : Stake)
    (h : Delegs sp s (withdrawalsOf ops) ((certsOf ops).map (·.1)) s') (key : Bytes) :
    s'.delegatedTo key = delegationAsked key ops (s.delegatedTo key) ∧
    s'.rewards key = accountAsked key ops
      (if ∃ a n, Op.addWithdrawal a n ∈ ops ∧ rewardKey a.toBytes = some key then some 0 else s.rewards key) := by
  obtain ⟨g1, g2⟩ := certRules_staking sp key ops _ s' h.2
  refine ⟨g1, ?_⟩
  rw [g2]
  have hw : (withdrawn s (withdrawalsOf ops)).rewards key =
      if ∃ a n, Op.addWithdrawal a n ∈ ops ∧ rewardKey a.toBytes = some key then some 0 else s.rewards key := by
    simp only [withdrawn]
    refine if_congr ?_ rfl rfl
    rw [List.any_eq_true]
    have : ∀ (ops : List Op) (w : Bytes × Nat), w ∈ withdrawalsOf ops ↔ ∃ a n, Op.addWithdrawal a n ∈ ops ∧ (a.toBytes, n) = w := by
      intro ops w
      induction ops with
      | nil => simp [withdrawalsOf]
      | cons op ops ih =>
        cases op <;> simp only [withdrawalsOf, List.mem_cons, ih, reduceCtorEq, false_or, Op.addWithdrawal.injEq]
        constructor
        · rintro (rfl | ⟨a, n, x, y⟩)
          · exact ⟨_, _, .inl ⟨rfl, rfl⟩, rfl⟩
          · exact ⟨a, n, .inr x, y⟩
        · rintro ⟨a, n, ⟨rfl, rfl⟩ | x, y⟩
          · exact .inl y.symm
          · exact .inr ⟨a, n, x, y⟩
    constructor
    · rintro ⟨w, hw, e⟩
      obtain ⟨a, n, x, rfl⟩ := (this ops w).mp hw
      exact ⟨a, n, x, by simpa using e⟩
    · rintro ⟨a, n, x, e⟩
      exact ⟨_, (this ops _).mpr ⟨a, n, x, rfl⟩, by simpa using e⟩
  rw [hw]

/-- **C97**, pools: a pool that was registered keeps its parameters in this epoch, its last registration counts from the next
one, and it retires as announced last (registering again takes the announcement back); a new pool is registered with its
first registration. -/
theorem C97_pools (sp : StakeParams) (ops : List Op) (s s' : Stake)
    (h : Delegs sp s (withdrawalsOf ops) ((certsOf ops).map (·.1)) s') (p : Bytes) :
    ((s.pools p).isSome → s'.pools p = s.pools p ∧ s'.retiring p = retirementAsked p ops (s.retiring p) ∧
      s'.future p = (registrationsOf p ops).getLast?.or (s.future p)) ∧
    (s.pools p = none → s'.pools p = (registrationsOf p ops).head?) := by
  have main : ∀ (ops : List Op) (s s' : Stake), certRules sp s ((certsOf ops).map (·.1)) = some s' →
      ((s.pools p).isSome → s'.pools p = s.pools p ∧ s'.retiring p = retirementAsked p ops (s.retiring p) ∧
        s'.future p = (registrationsOf p ops).getLast?.or (s.future p)) ∧
      (s.pools p = none → s'.pools p = (registrationsOf p ops).head?) := by
    intro ops
    induction ops with
    | nil => intro s s' h; obtain rfl := Option.some.inj h; simp [retirementAsked, registrationsOf]
    | cons op ops ih =>
      intro s s' h
      have other : ∀ s1, certRules sp s1 ((certsOf ops).map (·.1)) = some s' → s1.pools = s.pools → s1.retiring = s.retiring →
          s1.future = s.future → (∀ r, retirementAsked p (op :: ops) r = retirementAsked p ops r) →
          registrationsOf p (op :: ops) = registrationsOf p ops →
          ((s.pools p).isSome → s'.pools p = s.pools p ∧ s'.retiring p = retirementAsked p (op :: ops) (s.retiring p) ∧
            s'.future p = (registrationsOf p (op :: ops)).getLast?.or (s.future p)) ∧
          (s.pools p = none → s'.pools p = (registrationsOf p (op :: ops)).head?) := by
        intro s1 h1 e1 e2 e3 e4 e5
        rw [e4, e5, ← e1, ← e2, ← e3]
        exact ih s1 s' h1
      cases op with
      | poolRegistration q d =>
        obtain ⟨s1, h1, h2⟩ := Option.bind_eq_some_iff.mp h
        simp only [certRule] at h1
        have g := ih s1 s' h2
        split at h1
        · cases h1
        · split at h1
          · rename_i hq
            obtain rfl := Option.some.inj h1
            simp only [put] at g
            refine ⟨fun hp => ?_, fun hp => ?_⟩
            · obtain ⟨g1, g2, g3⟩ := g.1 hp
              refine ⟨g1, ?_, ?_⟩
              · rw [g2]
                simp only [retirementAsked, eq_comm (a := p)]
              · rw [g3]
                simp only [registrationsOf, eq_comm (a := p)]
                split
                · cases hr : registrationsOf p ops with
                  | nil => simp
                  | cons x l => rw [List.getLast?_cons_cons, List.getLast?_eq_some_getLast (by simp)]; rfl
                · rfl
            · rw [g.2 hp, registrationsOf]
              have : q.operator ≠ p := by rintro rfl; rw [hp] at hq; cases hq
              rw [if_neg this]
          · rename_i hq
            obtain rfl := Option.some.inj h1
            by_cases hqp : q.operator = p
            · subst hqp
              refine ⟨fun hp => absurd hp hq, fun hp => ?_⟩
              simp only [put, if_true, Option.isSome_some] at g
              rw [(g.1 trivial).1]
              simp [registrationsOf]
            · simp only [put, if_neg (Ne.symm hqp)] at g
              simp only [registrationsOf, retirementAsked, if_neg hqp]
              exact g
      | poolRetirement q e =>
        obtain ⟨s1, h1, h2⟩ := Option.bind_eq_some_iff.mp h
        simp only [certRule] at h1
        have g := ih s1 s' h2
        split at h1
        · obtain rfl := Option.some.inj h1
          refine ⟨fun hp => ?_, g.2⟩
          obtain ⟨g1, g2, g3⟩ := g.1 hp
          refine ⟨g1, ?_, g3⟩
          rw [g2]
          simp only [put, retirementAsked, eq_comm (a := p)]
        · cases h1
      | stakeRegistration a d =>
        obtain ⟨s1, h1, h2⟩ := Option.bind_eq_some_iff.mp h
        simp only [certRule, credKey, Option.bind_some] at h1
        split at h1
        · obtain rfl := Option.some.inj h1
          exact other _ h2 rfl rfl rfl (fun _ => rfl) rfl
        · cases h1
      | stakeDeregistration a =>
        obtain ⟨s1, h1, h2⟩ := Option.bind_eq_some_iff.mp h
        simp only [certRule, credKey, Option.bind_some] at h1
        split at h1
        · obtain rfl := Option.some.inj h1
          exact other _ h2 rfl rfl rfl (fun _ => rfl) rfl
        · cases h1
      | stakeDelegation a q =>
        obtain ⟨s1, h1, h2⟩ := Option.bind_eq_some_iff.mp h
        simp only [certRule, credKey, Option.bind_some] at h1
        split at h1
        · obtain rfl := Option.some.inj h1
          exact other _ h2 rfl rfl rfl (fun _ => rfl) rfl
        · cases h1
      | _ => exact other s h rfl rfl rfl (fun _ => rfl) rfl
  exact main ops (withdrawn s (withdrawalsOf ops)) s' h.2

/-! ## The whole effect -/

/-- **C97** A transaction prepared from the wallet's own money, whose certificates and withdrawals are allowed by the state of
the stake keys and pools, with sufficient funds, which the builder has counted rightly (`C91_counted_iff`): the builder makes a signed
transaction which the network applies, and afterwards, at the id the builder shows,
every payment asked for is an unspent output at its own position, followed at most by the change; the inputs are
spent; nothing else has changed; what went in is what came out; and the stake keys and pools are as the certificates say. -/
theorem C97_takes_effect (E : Env) (N : Crypto) (hN : SameCrypto E N) (pp : Params) (sp : StakeParams) (L : State2) (hL : L.Consistent)
    (k : Nat) (ops : List Op) (keys : List SKey) (b0 : Builder) (h0 : run E k {} ops = some b0)
    (hc : PreparedFor (Holds E N keys) pp L.st ops) (hcount : CountedRight pp L.st ops b0.tx.body) (hk : 12 ≤ k) (hB : 2 ^ 16 ≤ pp.minFeeB) (hmin : pp.minUtxo ≤ 1000000)
    (hfit : minFee pp.minFeeA pp.minFeeB (pp.maxTxSize + 8) < 2 ^ 31)
    (ws : List VkeyWitness) (hl : ws.length = keys.length) (hws : ∀ w ∈ ws, WitnessSized w)
    (hmax : ∀ s, TxSize (withWitnesses (addOutput b0 b0.changeAddr (2 ^ 63 - 1)).tx ws) s → s + 12 ≤ pp.maxTxSize)
    (f s : Nat) (hs : TxSize (withFee (withWitnesses b0.tx ws) f) s) (hf : f = minFee pp.minFeeA pp.minFeeB s)
    (hfunds : depositSum ops + f + outputSum (outputsOf ops) ≤ addedSum ops)
    (hsign : ∀ b1 id, balance k b0 keys.length true = some (b1, .ok ()) → getID E b1 = .ok id →
      ∀ key ∈ keys, CanSign E id key)
    (stake' : Stake) (hstake : Delegs sp L.stake (withdrawalsOf ops) ((certsOf ops).map (·.1)) stake')
    (hfresh : ∀ b2 id, run E k {} (ops ++ .balance keys.length true :: keys.map .sign) = some b2 → getID E b2 = .ok id →
      ∀ ix, L.st.utxo ⟨id, ix⟩ = none) :
    ∃ b2 id L', ∃ change : Option Nat, run E k {} (ops ++ .balance keys.length true :: keys.map .sign) = some b2 ∧ getID E b2 = .ok id ∧
      id.length = 32 ∧ Applied N pp sp L b2.tx L' ∧ L'.stake = stake' ∧
      (∀ i o, (outputsOf ops)[i]? = some o → L'.st.utxo ⟨id, i⟩ = some (o.address, o.amount)) ∧
      L'.st.utxo ⟨id, (outputsOf ops).length⟩ = change.map (fun x => (changeOf ops [], x)) ∧
      (∀ i, (outputsOf ops).length < i → L'.st.utxo ⟨id, i⟩ = none) ∧
      (∀ u ∈ inputsOf ops, L'.st.utxo (spends u) = none) ∧
      (∀ i : TxIn, i.txId ≠ id → i ∉ (inputsOf ops).map spends → L'.st.utxo i = L.st.utxo i) ∧
      addedSum ops = outputSum (outputsOf ops) + change.getD 0 + b2.tx.body.fee + depositSum ops := by
  obtain ⟨b2, r1, r2, r3⟩ := C91_funds_suffice E N hN pp L.st k ops keys b0 h0 hc hk hB hmin hfit ws hl hws hmax f s hs hf hfunds hsign
  have r2 := r2.mpr hcount
  obtain ⟨i1, i2, i3⟩ := hist_signed ops keys.length true keys
  obtain ⟨g1, g2, g3, -⟩ := run_facts E k _ {} b2 r1
  rw [i1] at g1
  rw [i2] at g2
  rw [i3] at g3
  have g3 : b2.tx.body.certificates = (certsOf ops).map (·.1) := by rw [g3]; rfl
  have hin : ∀ i, i ∈ b2.tx.body.inputs ↔ i ∈ (inputsOf ops).map spends := by
    intro i
    rw [g1, (foldl_setInsert txInLt_order _ _ List.Pairwise.nil).2]
    simp
  have hwd : ∀ w, w ∈ b2.tx.body.withdrawals ↔ w ∈ withdrawalsOf ops := by
    intro w
    rw [g2, (foldl_mapAssign _ [] List.Pairwise.nil).2]
    constructor
    · rintro (h | ⟨-, h⟩)
      · exact lastFor_mem _ _ _ h
      · cases h
    · intro h
      obtain ⟨n, hn⟩ : ∃ n, lastFor w.1 (withdrawalsOf ops) = some n := (lastFor_isSome _ _).mpr (List.mem_map_of_mem h)
      obtain ⟨x, e1, e2⟩ := hstake.1 w h
      obtain ⟨y, e3, e4⟩ := hstake.1 (w.1, n) (lastFor_mem _ _ _ hn)
      obtain rfl : x = y := Option.some.inj (e1.symm.trans e3)
      obtain rfl : w.2 = n := Option.some.inj (e2.symm.trans e4)
      exact .inl hn
  obtain ⟨bytes, w1, -⟩ := r2.witnesses
  have hid : getID E b2 = .ok (E.S.hash bytes) := by unfold getID; rw [w1]; rfl
  have hfr := hfresh b2 _ r1 hid
  have hst : Delegs sp L.stake b2.tx.body.withdrawals b2.tx.body.certificates stake' := by
    refine ⟨fun w hw => hstake.1 w ((hwd w).mp hw), ?_⟩
    rw [g3]
    have : withdrawn L.stake b2.tx.body.withdrawals = withdrawn L.stake (withdrawalsOf ops) := by
      unfold withdrawn
      congr 1
      funext h
      congr 1
      apply propext
      simp only [List.any_eq_true, hwd]
    rw [this]; exact hstake.2
  -- the value equation
  obtain ⟨k1, k2, k3, -⟩ := run_facts E k _ {} b0 h0
  have hval := r2.valuePreserved
  unfold consumed produced at hval
  unfold CountedRight at hcount
  rw [k1, ← g1, k2, ← g2, k3, List.nil_append, ← g3] at hcount
  rw [← hcount, g3, ← hc.deposits] at hval
  -- the outputs
  obtain ⟨change, ho, hosum⟩ : ∃ change : Option Nat, b2.tx.body.outputs = outputsOf ops ++ (change.map fun x => (⟨changeOf ops [], x⟩ : TxOut)).toList ∧
      outputSum b2.tx.body.outputs = outputSum (outputsOf ops) + change.getD 0 := by
    rcases r3 with r3 | ⟨x, r3⟩
    · exact ⟨none, by simpa using r3, by rw [r3]; rfl⟩
    · exact ⟨some x, by simpa using r3, by rw [r3]; simp [outputSum]⟩
  refine ⟨b2, _, ⟨⟨L.st.slot, L.st.network, utxoAfter L.st.utxo (E.S.hash bytes) b2.tx.body,
      newPools L.st.pools ((certsOf ops).map (·.1)) ++ L.st.pools⟩, stake'⟩, change, r1, hid, E.S.hash_length _,
    ⟨r2, hst, ⟨bytes, w1, by rw [hN.hash]⟩, ?_, rfl, rfl⟩, rfl, ?_, ?_, ?_, ?_, ?_, ?_⟩
  · exact certRules_pools sp _ (withdrawn L.stake (withdrawalsOf ops)) stake' L.st.pools hL hstake.2
  · intro i o hi
    have : b2.tx.body.outputs[i]? = some o := by
      rw [ho, List.getElem?_append_left]
      · exact hi
      · exact (List.getElem?_eq_some_iff.mp hi).1
    simp [utxoAfter, this]
  · cases change with
    | some x =>
      have : b2.tx.body.outputs[(outputsOf ops).length]? = some ⟨changeOf ops [], x⟩ := by rw [ho]; simp
      simp [utxoAfter, this]
    | none =>
      have : b2.tx.body.outputs[(outputsOf ops).length]? = none := by rw [ho]; simp
      simp [utxoAfter, this, hfr]
  · intro i hi
    have : b2.tx.body.outputs[i]? = none := by
      rw [ho, List.getElem?_eq_none_iff, List.length_append]
      cases change <;> simp <;> omega
    simp [utxoAfter, this, hfr]
  · intro u hu
    obtain ⟨addr, h, e, -⟩ := hc.inputs u hu
    have hne : (spends u).txId ≠ E.S.hash bytes := by
      intro he
      have := hfr (spends u).index
      rw [← he] at this
      have e' : L.st.utxo ⟨(spends u).txId, (spends u).index⟩ = some (addr, u.value) := e
      rw [this] at e'; cases e'
    show utxoAfter L.st.utxo (E.S.hash bytes) b2.tx.body (spends u) = none
    unfold utxoAfter
    rw [if_neg hne, if_pos ((hin _).mpr (List.mem_map_of_mem hu))]
  · intro i hi hn
    show utxoAfter L.st.utxo (E.S.hash bytes) b2.tx.body i = _
    unfold utxoAfter
    rw [if_neg hi, if_neg (fun h => hn ((hin i).mp h))]
  · rw [hosum] at hval
    omega

/-- **C97** The change can be spent next: in the ledger left by the transaction, the unspent output built from the id, the position
after the payments and the amount is one that a careful history may add, by whoever owns the change address.  So is each
payment, for its recipient. -/
theorem C97_spend_next (ops : List Op) (id : Bytes) (hid : id.length = 32) (st' : State) (own : Bytes → Prop) (change : Option Nat)
    (hp : ∀ i o, (outputsOf ops)[i]? = some o → st'.utxo ⟨id, i⟩ = some (o.address, o.amount))
    (hch : st'.utxo ⟨id, (outputsOf ops).length⟩ = change.map (fun x => (changeOf ops [], x))) :
    (∀ x h, change = some x → paymentKey (changeOf ops []) = some h → own h →
      ∃ addr h, st'.utxo (spends ⟨id, (outputsOf ops).length, x⟩) = some (addr, x) ∧ paymentKey addr = some h ∧ own h) ∧
    ∀ i o h, (outputsOf ops)[i]? = some o → paymentKey o.address = some h → own h →
      ∃ addr h, st'.utxo (spends ⟨id, i, o.amount⟩) = some (addr, o.amount) ∧ paymentKey addr = some h ∧ own h := by
  have ht : id.take 32 = id := List.take_of_length_le (by omega)
  constructor
  · rintro x h rfl h1 h2
    refine ⟨changeOf ops [], h, ?_, h1, h2⟩
    unfold spends
    rw [ht]; exact hch
  · intro i o h hi h1 h2
    refine ⟨o.address, h, ?_, h1, h2⟩
    unfold spends
    rw [ht]; exact hp i o hi

/-! ### A concrete case -/

/-- Withdraw the rewards of a stake key, register a second one and delegate both to a known pool, make a payment. -/
def toyOps2 : List Op :=
  [.addInput ⟨List.replicate 32 1, 0, 10000000⟩, .addWithdrawal ⟨0xE1, List.replicate 28 9⟩ 500000,
    .stakeDelegation ⟨0xE1, List.replicate 28 9⟩ (List.replicate 28 4), .stakeRegistration ⟨0xE1, List.replicate 28 8⟩ 2000000,
    .addOutputEnterprise ⟨0x61, List.replicate 28 2⟩ 5000000, .setChangeEnterprise ⟨0x61, List.replicate 28 9⟩, .setTtl 1000]

def toyPool : PoolParams := ⟨List.replicate 28 4, [], 0, 340000000, ⟨1, 10⟩, [], [], [], none⟩

def toyLedger : State2 where
  st := { toyState with pools := [List.replicate 28 4] }
  stake :=
    { rewards := fun h => if h = List.replicate 28 9 then some 500000 else none
      delegatedTo := fun _ => none
      pools := fun p => if p = List.replicate 28 4 then some toyPool else none
      future := fun _ => none
      retiring := fun _ => none }

theorem toyCareful2 : Careful toyWalletEnv toyNetwork toyParams toyLedger.st toyKeys toyOps2 where
  inputs u hu := by
    obtain rfl := List.mem_singleton.mp hu
    exact ⟨0x61 :: List.replicate 28 9, List.replicate 28 9, by decide +kernel, by decide +kernel, toyHolds⟩
  inputsOnce := by decide +kernel
  someInput := by decide +kernel
  withdrawals w hw := by
    obtain rfl := List.mem_singleton.mp hw
    exact ⟨List.replicate 28 9, by decide +kernel, toyHolds, by decide +kernel⟩
  withdrawalsOnce := by decide +kernel
  certificates c hc h hh := by
    rcases List.mem_cons.mp hc with rfl | hc
    · obtain rfl := List.mem_singleton.mp hh
      exact toyHolds
    · obtain rfl := List.mem_singleton.mp hc
      cases hh
  noDeregistration a h := by simp [toyOps2] at h
  deposits := by decide +kernel
  outputs o ho := by
    obtain rfl := List.mem_singleton.mp ho
    decide +kernel
  ttl := ⟨1000, rfl, by decide⟩
  change := by decide +kernel
  fees := rfl
  amounts := by decide +kernel
  noComputedFee op h := by
    simp only [toyOps2, List.mem_cons, List.not_mem_nil, or_false] at h
    rcases h with h | h | h | h | h | h | h <;> subst h <;> simp

/-- The certificates and the withdrawal are allowed. -/
theorem toyDelegs : ∃ s', Delegs ⟨208, 18, 340000000⟩ toyLedger.stake (withdrawalsOf toyOps2) ((certsOf toyOps2).map (·.1)) s' := by
  refine ⟨_, ?_, rfl⟩
  intro w hw
  obtain rfl := List.mem_singleton.mp hw
  exact ⟨List.replicate 28 9, by decide +kernel, by decide +kernel⟩

def toyBuilder2 : Builder := ((run toyWalletEnv 12 {} toyOps2).getD {})

/-- The id computed by the toy library is not the id of the output being spent. -/
theorem toyId : (run toyWalletEnv 12 {} (toyOps2 ++ .balance 1 true :: toyKeys.map .sign)).map (fun b => (getID toyWalletEnv b).isOk
    && decide (getID toyWalletEnv b ≠ .ok (List.replicate 32 1))) = some true := by decide +kernel

/-- The hypotheses of `C97_takes_effect` are met, and with them those of `C97_staking`, `C97_pools` and `C97_spend_next`: afterwards the first
key is delegated and has no rewards, the second is registered, the payment exists, and the change can be spent. -/
example : ∃ b2 id L', run toyWalletEnv 12 {} (toyOps2 ++ .balance 1 true :: toyKeys.map .sign) = some b2 ∧
    getID toyWalletEnv b2 = .ok id ∧ Applied toyNetwork toyParams ⟨208, 18, 340000000⟩ toyLedger b2.tx L' ∧
    L'.st.utxo ⟨id, 0⟩ = some (0x61 :: List.replicate 28 2, 5000000) ∧
    L'.stake.delegatedTo (List.replicate 28 9) = some (List.replicate 28 4) ∧ L'.stake.rewards (List.replicate 28 9) = some 0 ∧
    L'.stake.rewards (List.replicate 28 8) = some 0 ∧ L'.stake.pools (List.replicate 28 4) = some toyPool := by
  have h0 : run toyWalletEnv 12 {} toyOps2 = some toyBuilder2 := rfl
  obtain ⟨stake', hst⟩ := toyDelegs
  obtain ⟨b2, id, L', change, r1, r2, r3, r4, r5, r6, -⟩ := C97_takes_effect toyWalletEnv toyNetwork (sameCrypto_sodium _ _ _ _ _) toyParams
    ⟨208, 18, 340000000⟩ toyLedger (by intro p; simp only [toyLedger, List.mem_singleton]; split <;> rename_i h <;> simp only [h] <;> simp) 12
    toyOps2 toyKeys toyBuilder2 h0 toyCareful2.toPreparedFor
    (careful_counted toyWalletEnv _ toyParams toyLedger.st 12 toyOps2 toyBuilder2 h0 toyCareful2) (by decide) (by decide) (by decide) (by decide)
    [⟨List.replicate 32 0, List.replicate 64 0⟩] rfl (by simp [WitnessSized]) (by
      intro s hs
      rw [txSize_iff'] at hs
      have : sizeWithFee (withWitnesses (addOutput toyBuilder2 toyBuilder2.changeAddr (2 ^ 63 - 1)).tx
        [⟨List.replicate 32 0, List.replicate 64 0⟩]) 0 = .ok 369 := by decide +kernel
      have hs' : sizeWithFee _ 0 = .ok s := hs
      rw [this] at hs'
      rw [← Out.ok.inj hs']; decide) 169989 332 (by rw [txSize_iff]; decide +kernel) (by decide +kernel) (by decide +kernel)
    (by
      intro b1 id _ _ key hk
      obtain rfl := List.mem_singleton.mp hk
      refine ⟨by decide, ?_⟩
      intro h
      have h : ellL ∣ leNat (1 :: List.replicate 63 0) := h
      rw [show leNat (1 :: List.replicate 63 0) = 1 by decide +kernel] at h
      exact absurd (Nat.le_of_dvd (by decide) h) (by decide +kernel))
    stake' hst (by
      intro b2 id h1 h2 ix
      have ht := toyId
      rw [show (1 : Nat) = toyKeys.length from rfl, h1] at ht
      simp only [Option.map_some, Option.some.injEq, Bool.and_eq_true, decide_eq_true_eq, h2] at ht
      have hne : id ≠ List.replicate 32 1 := fun e => ht.2 (by rw [e])
      show (if (⟨id, ix⟩ : TxIn) = ⟨List.replicate 32 1, 0⟩ then _ else none) = none
      rw [if_neg]
      intro e
      rw [TxIn.mk.injEq] at e
      exact hne e.1)
  have hs := C97_staking ⟨208, 18, 340000000⟩ toyOps2 toyLedger.stake stake' hst
  have hp := (C97_pools ⟨208, 18, 340000000⟩ toyOps2 toyLedger.stake stake' hst (List.replicate 28 4)).1 (by decide +kernel)
  refine ⟨b2, id, L', r1, r2, r4, r6 0 _ rfl, ?_, ?_, ?_, ?_⟩
  · rw [r5, (hs _).1]; decide +kernel
  · rw [r5, (hs _).2, if_pos ⟨⟨0xE1, List.replicate 28 9⟩, 500000, by simp [toyOps2], by decide +kernel⟩]; decide +kernel
  · rw [r5, (hs _).2]; simp [accountAsked, toyOps2]
  · rw [r5, hp.1]; decide +kernel

end Cardano.TxBuilder
