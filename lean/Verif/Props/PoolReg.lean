import Verif.Spec.StakePool
import Verif.Props.OpCert
import Verif.Props.Rational
import Verif.Lemmas.Order
import Verif.Props.LedgerCddl

/-! # Pool registration certificates (C58) -/

namespace Cardano.Pool

open Cardano Cardano.Ed Cardano.Ledger Cardano.Spec.Ledger

theorem rejected_iff (f : Util.Dbl) (h : CallOk.MarginOk f) : marginRejected f = true ↔ InUnit f = false := by
  cases f with
  | nan => exact absurd h (by simp [CallOk.MarginOk])
  | inf neg => cases neg <;> simp [marginRejected, Util.Dbl.ltZero, Util.Dbl.gtOne, InUnit]
  | fin neg m e =>
    cases neg with
    | false => simp [marginRejected, Util.Dbl.ltZero, Util.Dbl.gtOne, InUnit]
    | true =>
      by_cases hm : m = 0
      · subst hm; simp [marginRejected, Util.Dbl.ltZero, Util.Dbl.gtOne, InUnit]
      · simp [marginRejected, Util.Dbl.ltZero, Util.Dbl.gtOne, InUnit, hm]

theorem u64_nat {n : Nat} (h : n < 2 ^ 64) : u64 (n : Int) = n := by
  unfold u64; omega

/-- **C58** Every accepted margin with at most 62 binary places becomes a fraction in lowest
terms, between 0 and 1, with denominator at most 4096, within 1/4096 of the margin asked for. -/
theorem C58_margin (fuel : Nat) (f : Util.Dbl) (hf : CallOk.MarginOk f) (hu : InUnit f = true) (hfuel : 63 ≤ fuel) :
    ∃ r, marginApprox fuel f = some (.ok r) ∧ UnitFraction r ∧ Approximates r f := by
  cases f with
  | nan => exact absurd hf (by simp [CallOk.MarginOk])
  | inf neg => exact absurd hu (by simp [InUnit])
  | fin neg m e =>
    obtain ⟨hn, hm, he⟩ := hf
    simp only [InUnit, Bool.and_eq_true, Bool.or_eq_true, Bool.not_eq_true', beq_iff_eq, decide_eq_true_eq] at hu
    obtain ⟨hneg, hle⟩ := hu
    unfold marginApprox
    rw [Util.C17_closed_form neg m e fuel 4096 hn (by omega)]
    by_cases hm0 : m = 0
    · subst hm0
      have he0 : e = 0 := by omega
      subst he0
      have : Util.rationalApprox neg 0 0 4096 = .ok (0, 1) := by cases neg <;> decide +kernel
      rw [this]
      refine ⟨⟨0, 1⟩, rfl, ⟨by decide, by decide, by decide, by decide⟩, ⟨Or.inr rfl, by decide, ?_⟩⟩
      norm_num
    · have hneg : neg = false := by
        rcases hneg with h | h
        · exact h
        · exact absurd h hm0
      subst hneg
      obtain ⟨p, q, h1, h2, h3, h4, h5, h6⟩ := Util.C17_approximation false m e 4096 hm he (by norm_num) (by norm_num)
      have hp := h6 hle
      have hq : q ≤ 4096 := by exact_mod_cast h3
      rw [h1]
      refine ⟨⟨p, q⟩, ?_, ⟨h2, hq, hp, h4⟩, ⟨Or.inl rfl, hle, by simpa using h5⟩⟩
      simp only [Bool.false_eq_true, if_false, Option.map_some, Out.ok_bind, Out.pure_eq]
      rw [u64_nat (by omega), u64_nat (by omega)]

/-- **C58** The constructor accepts exactly the margins in [0,1] with a cost of at least
170 ADA; the certificate then has the values given, no owners, relays or metadata. -/
theorem C58_register (E : Env) (fuel : Nat) (vkey vrf : Bytes) (pledge cost : Nat) (f : Util.Dbl) (a : Address.Single)
    (hv : vkey.length = 32) (hr : vrf.length = 32) (hp : pledge < 2 ^ 64) (hc : cost < 2 ^ 64) (ha : a.key.length = 28)
    (hf : CallOk.MarginOk f) (hfuel : 63 ≤ fuel) :
    (InUnit f = true ∧ 170000000 ≤ cost → ∃ p, register E fuel vkey vrf pledge cost f a = some (.ok p) ∧ Valid p ∧
      p.operator = E.blake224 vkey ∧ p.vrfKeyHash = E.P.blake256 vrf ∧ p.pledge = pledge ∧ p.cost = cost ∧ Approximates p.margin f ∧
      p.rewardAccount = a.header :: a.key ∧ p.owners = [] ∧ p.relays = [] ∧ p.metadata = none) ∧
    (¬ (InUnit f = true ∧ 170000000 ≤ cost) → register E fuel vkey vrf pledge cost f a = some (.throw .invalidArgument)) := by
  constructor
  · rintro ⟨hu, hcost⟩
    obtain ⟨r, h1, h2, h3⟩ := C58_margin fuel f hf hu hfuel
    have hrej : ¬ marginRejected f = true := by rw [rejected_iff f hf, hu]; decide
    refine ⟨⟨poolId E vkey, vrfKeyHash E vrf, pledge, cost, r, a.toBytes, [], [], none⟩, ?_, ?_, rfl, rfl, rfl, rfl, h3, rfl, rfl, rfl, rfl⟩
    · unfold register
      rw [if_neg hrej, if_neg (by unfold minPoolCost; omega), h1]
      rfl
    · refine ⟨E.blake224_length _, E.P.blake256_length _, hp, hc, h2, ?_, ⟨List.Pairwise.nil, by simp⟩, by simp, by simp⟩
      show (a.header :: a.key).length = 29
      simp [ha]
  · intro h
    unfold register
    by_cases hu : InUnit f = true
    · have hrej : ¬ marginRejected f = true := by rw [rejected_iff f hf, hu]; decide
      rw [if_neg hrej, if_pos (by unfold minPoolCost; by_contra hlt; exact h ⟨hu, by omega⟩)]
    · rw [if_pos ((rejected_iff f hf).mpr (by simpa using hu))]

/-! ### Histories -/

theorem lastOr_nil {α} (f : Call → Option α) (old : α) : lastOr f old [] = old := rfl

theorem lastOr_cons {α} (f : Call → Option α) (old : α) (c : Call) (cs : List Call) :
    lastOr f old (c :: cs) = lastOr f ((f c).getD old) cs := by
  unfold lastOr
  cases h : f c with
  | none => simp [List.filterMap_cons, h]
  | some v =>
    simp only [List.filterMap_cons, h, Option.getD_some]
    cases hl : (cs.filterMap f).getLast? with
    | none =>
      have : cs.filterMap f = [] := by simpa using hl
      rw [this]; rfl
    | some w =>
      have hne : cs.filterMap f ≠ [] := by intro h0; rw [h0] at hl; simp at hl
      have : (v :: cs.filterMap f).getLast? = (cs.filterMap f).getLast? := by
        rw [List.getLast?_cons]
        rw [hl]; rfl
      rw [this, hl]; rfl

/-- The effect of one call, spelled out. -/
structure Effect (E : Env) (p p' : PoolParams) (c : Call) : Prop where
  operator : p'.operator = (c.operator E).getD p.operator
  vrf : p'.vrfKeyHash = (c.vrf E).getD p.vrfKeyHash
  pledge : p'.pledge = c.pledge.getD p.pledge
  cost : p'.cost = c.cost.getD p.cost
  account : p'.rewardAccount = c.account.getD p.rewardAccount
  relays : p'.relays = p.relays ++ c.relay.toList
  metadata : p'.metadata = (c.metadata.map some).getD p.metadata
  owners : ∀ o, o ∈ p'.owners ↔ o ∈ p.owners ∨ ∃ a, c = .addOwner a ∧ a.key = o
  margin : (c.margin = none → p'.margin = p.margin) ∧ ∀ f, c.margin = some f → Approximates p'.margin f

theorem apply_ok (E : Env) (fuel : Nat) (p : PoolParams) (c : Call) (hp : Valid p) (hc : CallOk c) (hfuel : 63 ≤ fuel) :
    ∃ p', (apply E fuel p c).map (settle p) = some (.ok p') ∧ Valid p' ∧ Effect E p p' c := by
  obtain ⟨v1, v2, v3, v4, v5, v6, ⟨v7, v8⟩, v9, v10⟩ := hp
  have nomargin : ∀ f, (none : Option Util.Dbl) = some f → Approximates p.margin f := fun f h => by simp at h
  cases c with
  | setOperatorKey v =>
    refine ⟨{ p with operator := poolId E v }, rfl, ⟨E.blake224_length _, v2, v3, v4, v5, v6, ⟨v7, v8⟩, v9, v10⟩, ?_⟩
    exact ⟨rfl, rfl, rfl, rfl, rfl, by simp [Call.relay], rfl, by simp, ⟨fun _ => rfl, nomargin⟩⟩
  | setOperator i =>
    refine ⟨{ p with operator := i }, rfl, ⟨hc, v2, v3, v4, v5, v6, ⟨v7, v8⟩, v9, v10⟩, ?_⟩
    exact ⟨rfl, rfl, rfl, rfl, rfl, by simp [Call.relay], rfl, by simp, ⟨fun _ => rfl, nomargin⟩⟩
  | setVrfKey v =>
    refine ⟨{ p with vrfKeyHash := vrfKeyHash E v }, rfl, ⟨v1, E.P.blake256_length _, v3, v4, v5, v6, ⟨v7, v8⟩, v9, v10⟩, ?_⟩
    exact ⟨rfl, rfl, rfl, rfl, rfl, by simp [Call.relay], rfl, by simp, ⟨fun _ => rfl, nomargin⟩⟩
  | setPledge n =>
    refine ⟨{ p with pledge := n }, rfl, ⟨v1, v2, hc, v4, v5, v6, ⟨v7, v8⟩, v9, v10⟩, ?_⟩
    exact ⟨rfl, rfl, rfl, rfl, rfl, by simp [Call.relay], rfl, by simp, ⟨fun _ => rfl, nomargin⟩⟩
  | setCost n =>
    refine ⟨{ p with cost := n }, rfl, ⟨v1, v2, v3, hc, v5, v6, ⟨v7, v8⟩, v9, v10⟩, ?_⟩
    exact ⟨rfl, rfl, rfl, rfl, rfl, by simp [Call.relay], rfl, by simp, ⟨fun _ => rfl, nomargin⟩⟩
  | setMargin f =>
    by_cases hu : InUnit f = true
    · obtain ⟨r, h1, h2, h3⟩ := C58_margin fuel f hc hu hfuel
      have hrej : ¬ marginRejected f = true := by rw [rejected_iff f hc, hu]; decide
      refine ⟨{ p with margin := r }, ?_, ⟨v1, v2, v3, v4, h2, v6, ⟨v7, v8⟩, v9, v10⟩, ?_⟩
      · simp only [apply, setMargin]
        rw [if_neg hrej, h1]; rfl
      · refine ⟨rfl, rfl, rfl, rfl, rfl, by simp [Call.relay], rfl, by simp, ⟨?_, ?_⟩⟩
        · intro h; simp [Call.margin, hu] at h
        · intro g hg
          simp [Call.margin, hu] at hg
          subst hg; exact h3
    · refine ⟨p, ?_, ⟨v1, v2, v3, v4, v5, v6, ⟨v7, v8⟩, v9, v10⟩, ?_⟩
      · simp only [apply, setMargin]
        rw [if_pos ((rejected_iff f hc).mpr (by simpa using hu))]; rfl
      · refine ⟨rfl, rfl, rfl, rfl, rfl, by simp [Call.relay], rfl, by simp, ⟨fun _ => rfl, ?_⟩⟩
        intro g hg
        simp [Call.margin, hu] at hg
  | setRewardAccount a =>
    refine ⟨{ p with rewardAccount := a.toBytes }, rfl, ⟨v1, v2, v3, v4, v5, ?_, ⟨v7, v8⟩, v9, v10⟩, ?_⟩
    · have : a.key.length = 28 := hc
      show (a.header :: a.key).length = 29
      simp [this]
    · exact ⟨rfl, rfl, rfl, rfl, rfl, by simp [Call.relay], rfl, by simp, ⟨fun _ => rfl, nomargin⟩⟩
  | addOwner a =>
    have hk : a.key.length = 28 := hc
    refine ⟨{ p with owners := setInsert bytesLt a.key p.owners }, ?_, ⟨v1, v2, v3, v4, v5, v6, ⟨?_, ?_⟩, v9, v10⟩, ?_⟩
    · simp only [apply, addOwner, makeByteArray]
      rw [if_neg (by omega), List.take_of_length_le (by omega)]; rfl
    · exact setInsert_sorted bytesLt_order _ _ v7
    · intro o ho
      rcases (mem_setInsert bytesLt_order _ _ _).mp ho with rfl | ho
      · exact hk
      · exact v8 o ho
    · refine ⟨rfl, rfl, rfl, rfl, rfl, by simp [Call.relay], rfl, ?_, ⟨fun _ => rfl, nomargin⟩⟩
      intro o
      rw [mem_setInsert bytesLt_order]
      simp only [Call.addOwner.injEq]
      constructor
      · rintro (rfl | h)
        · exact Or.inr ⟨a, rfl, rfl⟩
        · exact Or.inl h
      · rintro (h | ⟨a', rfl, rfl⟩)
        · exact Or.inr h
        · exact Or.inl rfl
  | addRelayMulti d =>
    refine ⟨{ p with relays := p.relays ++ [.multi d] }, rfl, ⟨v1, v2, v3, v4, v5, v6, ⟨v7, v8⟩, ?_, v10⟩, ?_⟩
    · intro r hr
      rcases List.mem_append.mp hr with h | h
      · exact v9 r h
      · simp at h; subst h; exact ⟨by simp, hc⟩
    · exact ⟨rfl, rfl, rfl, rfl, rfl, rfl, rfl, by simp, ⟨fun _ => rfl, nomargin⟩⟩
  | addRelayName d port =>
    refine ⟨{ p with relays := p.relays ++ [.name d (some port)] }, rfl, ⟨v1, v2, v3, v4, v5, v6, ⟨v7, v8⟩, ?_, v10⟩, ?_⟩
    · intro r hr
      rcases List.mem_append.mp hr with h | h
      · exact v9 r h
      · simp at h; subst h; exact ⟨by simp, hc.1, by simpa using hc.2⟩
    · exact ⟨rfl, rfl, rfl, rfl, rfl, rfl, rfl, by simp, ⟨fun _ => rfl, nomargin⟩⟩
  | addRelayV4 ip port =>
    refine ⟨{ p with relays := p.relays ++ [.addr (some ip) none (some port)] }, rfl, ⟨v1, v2, v3, v4, v5, v6, ⟨v7, v8⟩, ?_, v10⟩, ?_⟩
    · intro r hr
      rcases List.mem_append.mp hr with h | h
      · exact v9 r h
      · simp at h; subst h; exact ⟨by simp, by simpa using hc.1, by simp, by simpa using hc.2⟩
    · exact ⟨rfl, rfl, rfl, rfl, rfl, rfl, rfl, by simp, ⟨fun _ => rfl, nomargin⟩⟩
  | addRelayV6 ip port =>
    refine ⟨{ p with relays := p.relays ++ [.addr none (some ip) (some port)] }, rfl, ⟨v1, v2, v3, v4, v5, v6, ⟨v7, v8⟩, ?_, v10⟩, ?_⟩
    · intro r hr
      rcases List.mem_append.mp hr with h | h
      · exact v9 r h
      · simp at h; subst h; exact ⟨by simp, by simp, by simpa using hc.1, by simpa using hc.2⟩
    · exact ⟨rfl, rfl, rfl, rfl, rfl, rfl, rfl, by simp, ⟨fun _ => rfl, nomargin⟩⟩
  | setMetadata u h =>
    have hh : 32 ≤ h.length := hc.2
    refine ⟨{ p with metadata := some ⟨u, h.take 32⟩ }, ?_, ⟨v1, v2, v3, v4, v5, v6, ⟨v7, v8⟩, v9, ?_⟩, ?_⟩
    · simp only [apply, setMetadata, makeByteArray]
      rw [if_neg (by omega)]; rfl
    · intro m hm
      simp at hm; subst hm
      exact ⟨hc.1, by simp; omega⟩
    · exact ⟨rfl, rfl, rfl, rfl, rfl, by simp [Call.relay], rfl, by simp, ⟨fun _ => rfl, nomargin⟩⟩

/-- **C58** (partial: the cost is not kept above the minimum, see `C58_cost_not_checked`, and
margins with 63 or more binary places are excluded, see `C58_small_margin`,
`C58_tiny_margin`, `C58_nan_margin`.)  For every history of setter calls the object stays
well formed (in particular the margin is a fraction in lowest terms between 0 and 1) and
every field holds the last value asked for; owners are the set and relays the sequence of
those added. -/
theorem C58_history_partial (E : Env) (fuel : Nat) (hfuel : 63 ≤ fuel) (calls : List Call) : ∀ (p : PoolParams),
    Valid p → (∀ c ∈ calls, CallOk c) →
    ∃ p', run E fuel p calls = some (.ok p') ∧ Valid p' ∧
      p'.operator = lastOr (Call.operator E) p.operator calls ∧ p'.vrfKeyHash = lastOr (Call.vrf E) p.vrfKeyHash calls ∧
      p'.pledge = lastOr Call.pledge p.pledge calls ∧ p'.cost = lastOr Call.cost p.cost calls ∧
      p'.rewardAccount = lastOr Call.account p.rewardAccount calls ∧
      p'.relays = p.relays ++ calls.filterMap Call.relay ∧
      p'.metadata = lastOr (fun c => c.metadata.map some) p.metadata calls ∧
      (∀ o, o ∈ p'.owners ↔ o ∈ p.owners ∨ ∃ a, .addOwner a ∈ calls ∧ a.key = o) ∧
      (calls.filterMap Call.margin = [] → p'.margin = p.margin) ∧
      (∀ f, (calls.filterMap Call.margin).getLast? = some f → Approximates p'.margin f) := by
  induction calls with
  | nil =>
    intro p hp _
    exact ⟨p, rfl, hp, rfl, rfl, rfl, rfl, rfl, by simp, rfl, by simp, fun _ => rfl, by simp⟩
  | cons c cs ih =>
    intro p hp hc
    obtain ⟨p1, h1, h2, he⟩ := apply_ok E fuel p c hp (hc c (by simp)) hfuel
    obtain ⟨p', r, v, a1, a2, a3, a4, a5, a6, a7, a8, a9, a10⟩ := ih p1 h2 (fun x hx => hc x (by simp [hx]))
    refine ⟨p', ?_, v, ?_, ?_, ?_, ?_, ?_, ?_, ?_, ?_, ?_, ?_⟩
    · rw [run, h1]; exact r
    · rw [lastOr_cons, a1, he.operator]
    · rw [lastOr_cons, a2, he.vrf]
    · rw [lastOr_cons, a3, he.pledge]
    · rw [lastOr_cons, a4, he.cost]
    · rw [lastOr_cons, a5, he.account]
    · rw [a6, he.relays]
      cases hr : c.relay <;> simp [List.filterMap_cons, hr]
    · rw [lastOr_cons, a7, he.metadata]
    · intro o
      rw [a8, he.owners]
      simp only [List.mem_cons]
      constructor
      · rintro ((h | ⟨a, rfl, rfl⟩) | ⟨a, h, rfl⟩)
        · exact Or.inl h
        · exact Or.inr ⟨a, Or.inl rfl, rfl⟩
        · exact Or.inr ⟨a, Or.inr h, rfl⟩
      · rintro (h | ⟨a, rfl | h, rfl⟩)
        · exact Or.inl (Or.inl h)
        · exact Or.inl (Or.inr ⟨a, rfl, rfl⟩)
        · exact Or.inr ⟨a, h, rfl⟩
    · intro h
      cases hm : c.margin with
      | none =>
        simp only [List.filterMap_cons, hm] at h
        rw [a9 h, he.margin.1 hm]
      | some f => simp [List.filterMap_cons, hm] at h
    · intro f hf
      cases hm : c.margin with
      | none =>
        simp only [List.filterMap_cons, hm] at hf
        exact a10 f hf
      | some g =>
        simp only [List.filterMap_cons, hm] at hf
        cases hl : (cs.filterMap Call.margin).getLast? with
        | none =>
          have h0 : cs.filterMap Call.margin = [] := by simpa using hl
          rw [h0] at hf
          simp at hf; subst hf
          rw [a9 h0]; exact he.margin.2 _ hm
        | some w =>
          rw [List.getLast?_cons, hl] at hf
          simp at hf; subst hf
          exact a10 _ hl

/-- **C58 fails** for the cost: `setCost` accepts any value, so after every history that ends
with it the certificate has that cost, below the minimum the constructor enforces. -/
theorem C58_cost_not_checked (E : Env) (fuel : Nat) (p : PoolParams) (n : Nat) :
    run E fuel p [.setCost n] = some (.ok { p with cost := n }) := rfl

theorem i64_range {x y : Int} (h : Util.i64 x = .ok y) : -(2 ^ 63) ≤ y ∧ y < 2 ^ 63 := by
  unfold Util.i64 at h
  split at h
  · rw [← Out.ok.inj h]; assumption
  · exact absurd h (by simp)

theorem raLoop_range (md : Int) : ∀ (rem : Nat) (first : Bool) (s s' : Util.RaState),
    (-(2 ^ 63) ≤ s.h1 ∧ s.h1 < 2 ^ 63) → (-(2 ^ 63) ≤ s.k1 ∧ s.k1 < 2 ^ 63) → Util.raLoop md rem first s = .ok s' →
    (-(2 ^ 63) ≤ s'.h1 ∧ s'.h1 < 2 ^ 63) ∧ (-(2 ^ 63) ≤ s'.k1 ∧ s'.k1 < 2 ^ 63) := by
  intro rem
  induction rem with
  | zero => intro first s s' h1 h2 h; rw [← Out.ok.inj h]; exact ⟨h1, h2⟩
  | succ rem ih =>
    intro first s s' h1 h2 h
    rw [Util.raLoop] at h
    by_cases c0 : s.n ≠ 0
    swap
    · rw [if_neg c0] at h
      simp only [Out.ok_bind] at h
      split at h
      · rw [← Out.ok.inj h]; exact ⟨h1, h2⟩
      · rw [if_pos (not_not.mp c0)] at h; exact absurd h (by simp)
    rw [if_pos c0] at h
    obtain ⟨a, -, h⟩ := Out.bind_eq_ok.mp h
    beta_reduce at h
    by_cases c1 : (!first) = true ∧ a = 0
    · rw [if_pos c1] at h; rw [← Out.ok.inj h]; exact ⟨h1, h2⟩
    · rw [if_neg c1] at h
      by_cases c2 : s.n = 0
      · rw [if_pos c2] at h; exact absurd h (by simp)
      · rw [if_neg c2] at h
        obtain ⟨p, -, h⟩ := Out.bind_eq_ok.mp h
        obtain ⟨q, -, h⟩ := Out.bind_eq_ok.mp h
        by_cases c3 : q ≥ md
        · rw [if_pos c3] at h
          by_cases c4 : s.k1 = 0
          · rw [if_pos c4] at h; exact absurd h (by simp)
          · rw [if_neg c4] at h
            obtain ⟨y, -, h⟩ := Out.bind_eq_ok.mp h
            split at h
            · obtain ⟨h2', e1, h⟩ := Out.bind_eq_ok.mp h
              obtain ⟨k2', e2, h⟩ := Out.bind_eq_ok.mp h
              rw [← Out.ok.inj h]; exact ⟨i64_range e1, i64_range e2⟩
            · rw [← Out.ok.inj h]; exact ⟨h1, h2⟩
        · rw [if_neg c3] at h
          obtain ⟨h2', e1, h⟩ := Out.bind_eq_ok.mp h
          obtain ⟨k2', e2, h⟩ := Out.bind_eq_ok.mp h
          exact ih false _ s' (i64_range e1) (i64_range e2) h

theorem i64_no_throw (x : Int) (e : Exc) : Util.i64 x ≠ .throw e := by
  unfold Util.i64; split <;> simp

theorem bind_no_throw {α β} {x : Out α} {f : α → Out β} {e : Exc} (hx : x ≠ .throw e) (hf : ∀ a, f a ≠ .throw e) :
    (x >>= f) ≠ .throw e := by
  cases x with
  | ok a => exact hf a
  | throw e' => intro h; apply hx; rw [Out.throw_bind] at h; simpa using h
  | ub => simp

theorem raLoop_no_throw (md : Int) (e : Exc) : ∀ (rem : Nat) (first : Bool) (s : Util.RaState),
    Util.raLoop md rem first s ≠ .throw e := by
  intro rem
  induction rem with
  | zero => intro first s h; exact absurd h (by simp [Util.raLoop])
  | succ rem ih =>
    intro first s
    rw [Util.raLoop]
    by_cases c0 : s.n ≠ 0
    swap
    · rw [if_neg c0]
      simp only [Out.ok_bind]
      split
      · simp [pure]
      · rw [if_pos (not_not.mp c0)]; simp
    rw [if_pos c0]
    refine bind_no_throw (i64_no_throw _ _) fun a => ?_
    beta_reduce
    split
    · intro h; exact absurd h (by simp [pure])
    · by_cases c2 : s.n = 0
      · exact absurd c2 c0
      · refine bind_no_throw (i64_no_throw _ _) fun p => bind_no_throw (i64_no_throw _ _) fun q => ?_
        split
        · by_cases c4 : s.k1 = 0
          · rw [if_pos c4]; simp
          · rw [if_neg c4]
            refine bind_no_throw (i64_no_throw _ _) fun y => ?_
            split
            · exact bind_no_throw (i64_no_throw _ _) fun _ => bind_no_throw (i64_no_throw _ _) fun _ => by simp [pure]
            · simp [pure]
        · exact bind_no_throw (i64_no_throw _ _) fun _ => bind_no_throw (i64_no_throw _ _) fun _ => ih _ _

/-- **C58 fails** for every margin with exactly 63 binary places: the call is undefined, or
the margin kept is 0, or the pair kept is not a fraction between 0 and 1. -/
theorem C58_wrapped_margin (E : Env) (fuel : Nat) (hf : 63 < fuel) (p : PoolParams) (m : Nat) (hm : m < 2 ^ 63) (ho : m % 2 = 1) :
    InUnit (.fin false m 63) = true ∧
    (run E fuel p [.setMargin (.fin false m 63)] = some .ub ∨
     ∃ r, run E fuel p [.setMargin (.fin false m 63)] = some (.ok { p with margin := r }) ∧
       (r = ⟨0, 1⟩ ∨ ¬ UnitFraction r)) := by
  have h := Util.C17_closed_form false m 63 fuel 4096 (Or.inl ho) hf
  have hrej : marginRejected (.fin false m 63) = false := by
    simp only [marginRejected, Util.Dbl.ltZero, Util.Dbl.gtOne, Bool.false_and, Bool.false_or, Bool.not_false, Bool.true_and,
      decide_eq_false_iff_not]
    omega
  refine ⟨by simp only [InUnit]; simp; omega, ?_⟩
  have hrun : ∀ x, Util.rationalApprox false m 63 4096 = x → apply E fuel p (.setMargin (.fin false m 63)) =
      some (do let r ← (do let (n, d) ← x; return (⟨u64 n, u64 d⟩ : Ledger.Rational)); return { p with margin := r }) := by
    intro x hx
    rw [hx] at h
    simp only [apply, setMargin, hrej, Bool.false_eq_true, if_false, marginApprox, h]
    rfl
  cases hx : Util.rationalApprox false m 63 4096 with
  | ub => left; rw [run, hrun _ hx]; rfl
  | throw e =>
    exfalso
    unfold Util.rationalApprox at hx
    rw [if_neg (by decide)] at hx
    exact bind_no_throw (i64_no_throw _ _) (fun d => bind_no_throw (raLoop_no_throw _ _ _ _ _) fun s => by simp [pure]) hx
  | ok r =>
    right
    obtain ⟨a, b⟩ := r
    have hsgn := Util.C17_wrapped_counter m 4096 a b (by omega) hm (by decide) hx
    have hr : (-(2 ^ 63) ≤ a ∧ a < 2 ^ 63) ∧ (-(2 ^ 63) ≤ b ∧ b < 2 ^ 63) := by
      unfold Util.rationalApprox at hx
      rw [if_neg (by decide)] at hx
      obtain ⟨d, -, hx⟩ := Out.bind_eq_ok.mp hx
      obtain ⟨s, hs, hx⟩ := Out.bind_eq_ok.mp hx
      obtain ⟨rfl, rfl⟩ := Prod.mk.inj (Out.ok.inj hx)
      simpa using raLoop_range 4096 64 true _ s (by constructor <;> simp) (by constructor <;> simp) hs
    refine ⟨⟨u64 a, u64 b⟩, by rw [run, hrun _ hx]; rfl, ?_⟩
    rcases hsgn with ⟨rfl, rfl⟩ | hsgn
    · left; decide
    · right
      rintro ⟨g1, g2, g3, -⟩
      simp only [u64] at g1 g2 g3
      rcases mul_neg_iff.mp hsgn with ⟨ha, hb⟩ | ⟨ha, hb⟩ <;> omega

/-- `0.0007`, `0.0006` and `0.0008` have exactly 63 binary places, e.g. 0.0007 becomes
18446744073709551615/1429. -/
theorem C58_small_margin (E : Env) (p : PoolParams) :
    run E 64 p [.setMargin (.fin false 6456360425798343 63)] = some (.ok { p with margin := ⟨18446744073709551615, 1429⟩ }) ∧
    InUnit (.fin false 6456360425798343 63) = true ∧ ¬ UnitFraction ⟨18446744073709551615, 1429⟩ := by
  have h := Util.C17_closed_form false 6456360425798343 63 64 4096 (Or.inl (by decide)) (by decide)
  rw [Util.C17_small_input_sign.1] at h
  refine ⟨?_, by decide +kernel, fun h => absurd h.2.2.1 (by decide)⟩
  have hrej : marginRejected (.fin false 6456360425798343 63) = false := by decide +kernel
  have happ : apply E 64 p (.setMargin (.fin false 6456360425798343 63)) = some (.ok { p with margin := ⟨18446744073709551615, 1429⟩ }) := by
    simp only [apply, setMargin, hrej, Bool.false_eq_true, if_false, marginApprox, h]
    rfl
  rw [run, happ]; rfl

/-- **C58 fails** for margins with 64 or more binary places, such as 0.0001: undefined behaviour
(a division by zero). -/
theorem C58_tiny_margin (E : Env) (fuel : Nat) (p : PoolParams) (m e : Nat) (hm : m < 2 ^ 63) (ho : m % 2 = 1) (he : 64 ≤ e) (hf : e < fuel) :
    run E fuel p [.setMargin (.fin false m e)] = some .ub := by
  have h := Util.C17_closed_form false m e fuel 4096 (Or.inl ho) hf
  rw [Util.C17_tiny_input_undefined m e 4096 hm he (by decide)] at h
  have hle : ¬ 2 ^ e < m := by
    have : (2 : Nat) ^ 64 ≤ 2 ^ e := Nat.pow_le_pow_right (by decide) he
    omega
  have hrej : marginRejected (.fin false m e) = false := by
    simp [marginRejected, Util.Dbl.ltZero, Util.Dbl.gtOne]; omega
  have happ : apply E fuel p (.setMargin (.fin false m e)) = some .ub := by
    simp only [apply, setMargin, hrej, Bool.false_eq_true, if_false, marginApprox, h]
    rfl
  rw [run, happ]; rfl

/-- **C58 fails** for NaN: the range check lets it through and the call never returns. -/
theorem C58_nan_margin (E : Env) (p : PoolParams) : ∀ fuel, run E fuel p [.setMargin .nan] = none := by
  intro fuel
  have happ : apply E fuel p (.setMargin .nan) = none := by
    simp only [apply, setMargin, marginRejected, Util.Dbl.ltZero, Util.Dbl.gtOne, Bool.or_self, Bool.false_eq_true, if_false, marginApprox]
    rw [Util.C17_nan_diverges 4096 (by decide)]; rfl
  rw [run, happ]; rfl

/-- `setMetadata` with a hash of fewer than 32 bytes stores indeterminate bytes. -/
theorem C58_short_metadata_hash (E : Env) (fuel : Nat) (p : PoolParams) (u h : Bytes) (hh : h.length < 32) :
    run E fuel p [.setMetadata u h] = some .ub := by
  have happ : apply E fuel p (.setMetadata u h) = some .ub := by
    simp only [apply, setMetadata, makeByteArray, if_pos hh]; rfl
  rw [run, happ]; rfl

/-- A certificate with an IPv6 relay cannot be serialized, whatever else it holds. -/
theorem C58_ipv6_relay (p : PoolParams) (ip : Bytes) (port : Nat) (hr : .addr none (some ip) (some port) ∈ p.relays) :
    regSerialize p = .throw .badOptional := by
  have aux : ∀ l : List Relay, Relay.addr none (some ip) (some port) ∈ l → (∀ r ∈ l, True) → mapOut Relay.ser l = .throw .badOptional := by
    intro l
    induction l with
    | nil => intro h; simp at h
    | cons r l ih =>
      intro h _
      rw [mapOut]
      rcases List.mem_cons.mp h with rfl | h
      · rfl
      · have e := ih h (by simp)
        cases hrs : Relay.ser r with
        | ok x => rw [e]; rfl
        | throw er =>
          have : er = .badOptional := by
            cases r with
            | empty => simp [Relay.ser] at hrs
            | addr v4 v6 port => cases v4 <;> cases v6 <;> simp [Relay.ser] at hrs; exact hrs.symm
            | name d port => simp [Relay.ser] at hrs
            | multi d => simp [Relay.ser] at hrs
          rw [this]; rfl
        | ub =>
          cases r with
          | empty => simp [Relay.ser] at hrs
          | addr v4 v6 port => cases v4 <;> cases v6 <;> simp [Relay.ser] at hrs
          | name d port => simp [Relay.ser] at hrs
          | multi d => simp [Relay.ser] at hrs
  have hne : p.relays ≠ [] := by intro h; rw [h] at hr; simp at hr
  have hrel : relaysItem p.relays = .throw .badOptional := by
    unfold relaysItem; rw [if_neg hne, aux _ hr (by simp)]; rfl
  have hser : p.ser = .throw .badOptional := by unfold PoolParams.ser; rw [hrel]; rfl
  show (do let l ← (do let ps ← p.ser; Out.ok (Cbor.Item.uint 3 :: ps)); Out.ok (encArray l) : Out Bytes) = _
  rw [hser]; rfl

/-- **C58** What a well-formed registration without IPv6 relays serializes to: bytes of one CBOR
array, which is a registration certificate of the ledger's CDDL exactly when there is at least
one owner, at least one relay, metadata is set, and names and URL have at most 64 bytes. -/
theorem C58_conforms (p : PoolParams) (hp : Valid p) (ho : Fits p.owners) (hr : Fits p.relays)
    (h6 : ∀ ip port, Relay.addr none (some ip) port ∉ p.relays) (h4 : ∀ port, Relay.addr none none port ∉ p.relays) :
    ∃ b l, regSerialize p = .ok b ∧ Cbor.parse b = some (.array l) ∧
      (CertificateC (.array l) ↔ p.owners ≠ [] ∧ p.relays ≠ [] ∧
        (∀ d port, Relay.name d port ∈ p.relays → d.length ≤ 64) ∧ (∀ d, Relay.multi d ∈ p.relays → d.length ≤ 64) ∧
        ∃ m, p.metadata = some m ∧ m.url.length ≤ 64) := by
  obtain ⟨v1, v2, v3, v4, v5, v6, ⟨v7, v8⟩, v9, v10⟩ := hp
  have hu : p.margin.num < 2 ^ 64 ∧ p.margin.den < 2 ^ 64 := by
    obtain ⟨a, b, c, _⟩ := v5; omega
  have hrep : CertRep (.poolReg p) :=
    ⟨v1, v2, v3, v4, hu, by unfold Fits; rw [v6]; decide, ⟨ho, v7, v8⟩, ⟨hr, fun r h => (v9 r h).2⟩, v10⟩
  have aux : ∀ l : List Relay, (∀ r ∈ l, ∃ x, Relay.ser r = .ok x) → ∃ xs, mapOut Relay.ser l = .ok xs := by
    intro l
    induction l with
    | nil => intro _; exact ⟨[], rfl⟩
    | cons r l ih =>
      intro h
      obtain ⟨x, hx⟩ := h r (by simp)
      obtain ⟨xs, hxs⟩ := ih (fun r hr => h r (by simp [hr]))
      exact ⟨x :: xs, by rw [mapOut, hx, hxs]; rfl⟩
  have hall : ∀ r ∈ p.relays, ∃ x, Relay.ser r = .ok x := by
    intro r hr
    cases r with
    | empty => exact absurd rfl (v9 _ hr).1
    | addr v4 v6 port =>
      cases v4 with
      | some ip => exact ⟨_, rfl⟩
      | none =>
        cases v6 with
        | some ip => exact absurd hr (h6 ip port)
        | none => exact absurd hr (h4 port)
    | name d port => exact ⟨_, rfl⟩
    | multi d => exact ⟨_, rfl⟩
  have hser : ∃ l, (Certificate.poolReg p).ser = .ok l := by
    obtain ⟨xs, hxs⟩ := aux _ hall
    unfold Certificate.ser PoolParams.ser relaysItem
    by_cases h0 : p.relays = []
    · simp [h0]
    · simp [h0, hxs]
  obtain ⟨l, hl⟩ := hser
  have hwf := cert_wf _ hrep l hl
  refine ⟨Cbor.enc (.array l), l, ?_, Cbor.parse_enc _ hwf, ?_⟩
  · unfold regSerialize Certificate.serialize; rw [hl]; rfl
  · rw [C64_certificate _ hrep l hl]
    unfold CertConforms
    refine and_congr_right fun _ => and_congr_right fun _ => ?_
    constructor
    · rintro ⟨h1, h2⟩
      exact ⟨fun d port h => h1 _ h, fun d h => h1 _ h, h2⟩
    · rintro ⟨h1, h2, h3⟩
      refine ⟨fun r hr => ?_, h3⟩
      cases r with
      | empty => exact absurd rfl (v9 _ hr).1
      | addr v4 v6 port =>
        cases v4 with
        | some ip => trivial
        | none =>
          cases v6 with
          | some ip => exact absurd hr (h6 ip port)
          | none => exact absurd hr (h4 port)
      | name d port => exact h1 d port hr
      | multi d => exact h2 d hr

/-! ### Concrete cases -/

/-- A registration with margin 0.25 and a history over it. -/
def demoHistory : List Call :=
  [.setPledge 5, .addOwner ⟨0xE1, List.replicate 28 9⟩, .addOwner ⟨0xE1, List.replicate 28 3⟩, .addOwner ⟨0xE0, List.replicate 28 9⟩,
   .addRelayV4 [1, 2, 3, 4] 3001, .setMargin (.fin false 5 1), .addRelayMulti [97], .setMargin (.fin false 1 4), .setPledge 6,
   .setMetadata [104] (List.replicate 40 1)]

example : ∀ c ∈ demoHistory, CallOk c := by
  simp [demoHistory, CallOk, CallOk.MarginOk, Fits]

example (E : Env) : ∃ p p', register E 63 (List.replicate 32 1) (List.replicate 32 2) 7 340000000 (.fin false 1 2) ⟨0xE1, List.replicate 28 5⟩ = some (.ok p) ∧
    p.margin = ⟨1, 4⟩ ∧ run E 63 p demoHistory = some (.ok p') ∧ p'.pledge = 6 ∧ p'.margin = ⟨1, 16⟩ ∧
    p'.owners = [List.replicate 28 3, List.replicate 28 9] ∧ p'.relays = [.addr (some [1, 2, 3, 4]) none (some 3001), .multi [97]] ∧
    p'.metadata = some ⟨[104], List.replicate 32 1⟩ := ⟨_, _, rfl, rfl, rfl, rfl, rfl, rfl, rfl, rfl⟩

end Cardano.Pool
