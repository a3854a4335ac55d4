import Verif.Spec.Wallet
import Verif.Props.TxForce
import Verif.Props.TxBalance
import Verif.Props.ColdKey
import Verif.Props.Ed25519

/-! # C90 and C91: from keys to accepted transactions -/

namespace Cardano.TxBuilder

open Cardano Cardano.Ed Cardano.Ledger Cardano.Address Cardano.Spec.TxBuilder Cardano.Spec.LedgerRules Cardano.Spec.Wallet

/-! ## Signing with a list of keys -/

theorem canSign_ok (E : Env) (id : Bytes) (key : SKey) (h : CanSign E id key) :
    ∃ pub sig, key.pub E = .ok pub ∧ key.sign E id = .ok sig ∧ pub.length = 32 ∧ sig.length = 64 := by
  cases key with
  | ed seed => exact ⟨_, _, rfl, rfl, E.S.pub_length _, E.S.sign_length _ _⟩
  | bip k =>
    obtain ⟨hw, h1, h2⟩ := h
    obtain ⟨sig, hs⟩ := Bip32.C33_sign_total E.C E.P k id h1 h2
    obtain ⟨p, hp, hl, -⟩ := Bip32.C33_sign_verifies E.C E.P k id sig hs
    refine ⟨p.key, sig, by simp [SKey.pub, hp], hs, ?_, hl⟩
    obtain ⟨-, rfl⟩ := Bip32.publicKey_ok hp
    exact E.C.enc_length _

/-- What signing with all keys does. -/
theorem sign_all (E : Env) (k : Nat) (id : Bytes) : ∀ (keys : List SKey) (b : Builder), getID E b = .ok id →
    (∀ key ∈ keys, CanSign E id key) →
    ∃ ws, run E k b (keys.map .sign) = some { b with tx := withWitnesses b.tx ws } ∧
      ws.length ≤ b.tx.wits.vkeys.length + keys.length ∧
      (∀ w ∈ ws, w ∈ b.tx.wits.vkeys ∨ ∃ key ∈ keys, key.pub E = .ok w.vkey ∧ key.sign E id = .ok w.sig) ∧
      (∀ w ∈ b.tx.wits.vkeys, ∃ w' ∈ ws, w'.vkey = w.vkey) ∧
      ∀ key ∈ keys, ∃ w ∈ ws, key.pub E = .ok w.vkey := by
  intro keys
  induction keys with
  | nil =>
    intro b hid _
    exact ⟨b.tx.wits.vkeys, rfl, by simp, fun w hw => Or.inl hw, fun w hw => ⟨w, hw, rfl⟩, by simp⟩
  | cons key keys ih =>
    intro b hid hk
    obtain ⟨pub, sig, h1, h2, -, -⟩ := canSign_ok E id key (hk key (by simp))
    have hs : sign E b key = ({ b with tx := withWitnesses b.tx (replaceWitness b.tx.wits.vkeys pub sig) }, .ok ()) := by
      unfold sign witnessFor makeWitness
      rw [hid, Out.ok_bind, h2, Out.ok_bind, h1]
      rfl
    obtain ⟨ws, g1, g2, g3, g4, g5⟩ := ih { b with tx := withWitnesses b.tx (replaceWitness b.tx.wits.vkeys pub sig) }
      (by rw [← hid]; rfl) (fun key' h => hk key' (by simp [h]))
    have hlen : (replaceWitness b.tx.wits.vkeys pub sig).length ≤ b.tx.wits.vkeys.length + 1 := by
      unfold replaceWitness
      rw [List.length_append]
      have := List.length_filter_le (fun w : VkeyWitness => !(w.vkey == pub)) b.tx.wits.vkeys
      simp only [List.length_singleton]
      omega
    have hold : ∀ w ∈ b.tx.wits.vkeys, ∃ w' ∈ replaceWitness b.tx.wits.vkeys pub sig, w'.vkey = w.vkey := by
      intro w hw
      by_cases he : w.vkey = pub
      · exact ⟨⟨pub, sig⟩, by simp [replaceWitness], he.symm⟩
      · exact ⟨w, by simp [replaceWitness, hw, he], rfl⟩
    have hmem : ∀ w ∈ replaceWitness b.tx.wits.vkeys pub sig, w ∈ b.tx.wits.vkeys ∨ w = ⟨pub, sig⟩ := by
      intro w hw
      unfold replaceWitness at hw
      rcases List.mem_append.mp hw with hw | hw
      · exact Or.inl (List.mem_filter.mp hw).1
      · exact Or.inr (List.mem_singleton.mp hw)
    refine ⟨ws, ?_, ?_, ?_, ?_, ?_⟩
    · rw [List.map_cons, run]
      simp only [step, hs]
      rw [g1]; rfl
    · change ws.length ≤ (replaceWitness b.tx.wits.vkeys pub sig).length + keys.length at g2
      simp only [List.length_cons]; omega
    · intro w hw
      rcases g3 w hw with g | ⟨key', hk', e⟩
      · rcases hmem w g with g | rfl
        · exact Or.inl g
        · exact Or.inr ⟨key, by simp, h1, h2⟩
      · exact Or.inr ⟨key', by simp [hk'], e⟩
    · intro w hw
      obtain ⟨w', hw', e⟩ := hold w hw
      obtain ⟨w'', hw'', e'⟩ := g4 w' hw'
      exact ⟨w'', hw'', e'.trans e⟩
    · intro key' hk'
      rcases List.mem_cons.mp hk' with rfl | hk'
      · obtain ⟨w'', hw'', e'⟩ := g4 ⟨pub, sig⟩ (by simp [withWitnesses, replaceWitness])
        exact ⟨w'', hw'', by rw [h1, e']⟩
      · exact g5 key' hk'

/-! ## The parameters of a history -/

theorem run_params (E : Env) (k : Nat) (ops : List Op) (hn : NoComputedFee ops) : ∀ b b', run E k b ops = some b' →
    b'.changeAddr = changeOf ops b.changeAddr ∧ (b'.minFeeA, b'.minFeeB) = feeParams ops (b.minFeeA, b.minFeeB) := by
  induction ops with
  | nil => intro b b' h; simp only [run, Option.some.injEq] at h; subst h; exact ⟨rfl, rfl⟩
  | cons op ops ih =>
    intro b b' h
    have hn' : NoComputedFee ops := fun op h => hn op (by simp [h])
    rw [run] at h
    split at h
    · cases h
    · cases h
    · rename_i b1 o _ hst
      obtain ⟨g1, g2⟩ := ih hn' b1 b' h
      rw [g1, g2]
      have hop := hn op (by simp)
      cases op <;> simp only [step, Option.some.injEq, Prod.mk.injEq] at hst <;> simp only [changeOf, feeParams]
      case updateFee n => exact absurd rfl (hop.1 n)
      case balance n f => exact absurd rfl (hop.2 n f)
      case addInput u =>
        unfold addInput at hst
        split at hst <;> simp only [Prod.mk.injEq] at hst <;> rw [← hst.1] <;> exact ⟨rfl, rfl⟩
      case sign key =>
        unfold sign at hst
        split at hst <;> simp only [Prod.mk.injEq] at hst <;> rw [← hst.1] <;> exact ⟨rfl, rfl⟩
      all_goals (rw [← hst.1]; exact ⟨rfl, rfl⟩)

/-! ## C91 -/

theorem body_serialize_of (t : Tx) (s : Bytes) (h : t.serialize = .ok s) : ∃ x, t.body.serialize = .ok x := by
  unfold Tx.serialize Tx.ser at h
  unfold TxBody.serialize
  cases hb : t.body.ser with
  | ok l => exact ⟨_, rfl⟩
  | throw e => rw [hb] at h; cases h
  | ub => rw [hb] at h; cases h

theorem preparedFor_mono {own own' : Bytes → Prop} (h : ∀ x, own x → own' x) {pp : Params} {st : State} {ops : List Op}
    (hc : PreparedFor own pp st ops) : PreparedFor own' pp st ops where
  inputs u hu := by obtain ⟨a, b, h1, h2, h3⟩ := hc.inputs u hu; exact ⟨a, b, h1, h2, h _ h3⟩
  someInput := hc.someInput
  withdrawals w hw := by obtain ⟨a, h1, h2, h3⟩ := hc.withdrawals w hw; exact ⟨a, h1, h _ h2, h3⟩
  certificates c hm x hx := h _ (hc.certificates c hm x hx)
  deposits := hc.deposits
  outputs := hc.outputs
  ttl := hc.ttl
  change := hc.change
  fees := hc.fees
  amounts := hc.amounts
  noComputedFee := hc.noComputedFee

theorem carefulFor_mono {own own' : Bytes → Prop} (h : ∀ x, own x → own' x) {pp : Params} {st : State} {ops : List Op}
    (hc : CarefulFor own pp st ops) : CarefulFor own' pp st ops where
  toPreparedFor := preparedFor_mono h hc.toPreparedFor
  inputsOnce := hc.inputsOnce
  withdrawalsOnce := hc.withdrawalsOnce
  noDeregistration := hc.noDeregistration

/-- The body after a careful preparation and a successful balance. -/
theorem careful_body (E : Env) (own : Bytes → Prop) (pp : Params) (st : State) (k n : Nat) (force : Bool) (ops : List Op)
    (b0 b1 : Builder) (h0 : run E k {} ops = some b0) (h1 : balance k b0 n force = some (b1, .ok ()))
    (hc : PreparedFor own pp st ops) :
    (∀ i, i ∈ b1.tx.body.inputs ↔ i ∈ (inputsOf ops).map spends) ∧
    (∀ w ∈ b1.tx.body.withdrawals, w ∈ withdrawalsOf ops) ∧
    b1.tx.body.certificates = (certsOf ops).map (·.1) ∧
    (∃ t, ttlOf ops = some t ∧ b1.tx.body.ttl = t) ∧
    (∀ o ∈ b1.tx.body.outputs, o ∈ outputsOf ops ∨ 1000000 ≤ o.amount ∧ o.amount < 2 ^ 63 ∧
      (o.address = changeOf ops [] ∨ ∃ o' ∈ outputsOf ops, o'.address = o.address)) ∧
    b0.minFeeA = pp.minFeeA ∧ b0.minFeeB = pp.minFeeB ∧ b1.tx.wits.vkeys = [] := by
  obtain ⟨g1, g2, g3, g4, -, -, -, -, g9⟩ := run_facts E k ops {} b0 h0
  obtain ⟨g9, -⟩ := g9 hc.noComputedFee
  obtain ⟨p1, p2⟩ := run_params E k ops hc.noComputedFee {} b0 h0
  obtain ⟨outs, fee, e⟩ := balance_frame k b0 b1 n force _ h1
  have e1 : b1.tx.body.inputs = b0.tx.body.inputs := by rw [e]; rfl
  have e2 : b1.tx.body.withdrawals = b0.tx.body.withdrawals := by rw [e]; rfl
  have e3 : b1.tx.body.certificates = b0.tx.body.certificates := by rw [e]; rfl
  have e4 : b1.tx.body.ttl = b0.tx.body.ttl := by rw [e]; rfl
  have hfees := hc.fees
  change (b0.minFeeA, b0.minFeeB) = feeParams ops (44, 155381) at p2
  rw [hfees] at p2
  change b0.changeAddr = changeOf ops [] at p1
  obtain ⟨t, ht, -⟩ := hc.ttl
  refine ⟨?_, ?_, ?_, ⟨t, ht, ?_⟩, ?_, (Prod.mk.inj p2).1, (Prod.mk.inj p2).2, ?_⟩
  · intro i
    rw [e1, g1, (foldl_setInsert txInLt_order _ _ List.Pairwise.nil).2]
    simp
  · intro w hw
    rw [e2, g2] at hw
    rcases ((foldl_mapAssign _ [] List.Pairwise.nil).2 w).mp hw with h | ⟨-, h⟩
    · exact lastFor_mem _ _ _ h
    · cases h
  · rw [e3, g3]; rfl
  · rw [e4, g4, ht]; rfl
  · intro o ho
    have := C68_no_dust k b0 b1 n force _ h1 o ho
    rw [g9, p1] at this
    simpa using this
  · exact clears_vkeys E k b0 b1 (.balance n force) (.ok ()) rfl h1

/-- Where a successful `balance` stops: after an `updateFee`, with the fee it found or with the change added to
that fee. -/
theorem balance_last (k n : Nat) (force : Bool) : ∀ r first b b', balanceLoop k n force r first b = some (b', .ok ()) →
    ∃ bu, calculateFee k bu n = some (.ok bu.tx.body.fee) ∧ bu.inputTotal = b'.inputTotal ∧
      bu.depositTotal = b'.depositTotal ∧ bu.minFeeA = b'.minFeeA ∧ bu.minFeeB = b'.minFeeB ∧
      bu.tx = withFee b'.tx bu.tx.body.fee ∧
      (b'.tx.body.fee = bu.tx.body.fee ∨ ∃ c, 0 < c ∧ change bu = .ok c ∧ b'.tx.body.fee = (bu.tx.body.fee + u64 c) % 2 ^ 64) := by
  intro r
  induction r with
  | zero => intro first b b' h; simp [balanceLoop] at h
  | succ r ih =>
    intro first b b' h
    rw [balanceLoop] at h
    split at h
    · cases h
    · cases h
    · cases h
    · rename_i bu _ hu
      split at h
      · cases h
      · rename_i b1 o hst
        simp only [Option.some.injEq, Prod.mk.injEq] at h
        obtain ⟨rfl, rfl⟩ := h
        refine ⟨bu, updateFee_ok k b bu n hu, ?_⟩
        unfold balanceStep at hst
        split at hst
        · rename_i c hc
          split at hst
          · simp only [Option.some.injEq, Next.stop.injEq, and_true] at hst
            subst hst
            exact ⟨rfl, rfl, rfl, rfl, rfl, Or.inl rfl⟩
          · split at hst
            · exact absurd (Option.some.inj hst) (onNegative_not_ok _ _ _)
            · unfold onPositive at hst
              split at hst
              · cases hst
              · split at hst
                · unfold forceFee at hst
                  dsimp only at hst
                  split at hst
                  · cases hst
                  · split at hst
                    · cases hst
                    · simp only [Option.some.injEq, Next.stop.injEq, and_true] at hst
                      subst hst
                      exact ⟨rfl, rfl, rfl, rfl, rfl, Or.inr ⟨c, by omega, hc, rfl⟩⟩
                  · cases hst
                  · cases hst
                · cases hst
        · cases hst
        · cases hst
      · exact ih _ _ _ h

/-- A successful balance of less than 2^62 lovelace leaves a fee below 2^63. -/
theorem balance_fee_lt (k n : Nat) (force : Bool) (b b' : Builder) (m : Nat)
    (h : balance k b n force = some (b', .ok ())) (hA : 0 ≤ b.minFeeA) (hB : 0 ≤ b.minFeeB)
    (hm : ∀ s, TxSize (dummyTx b'.tx n) s → s ≤ m)
    (hfit : minFee b.minFeeA.toNat b.minFeeB.toNat (m + 8) < 2 ^ 62) (hin : b.inputTotal < 2 ^ 62)
    (hd : 0 ≤ b.depositTotal) (ho : ∀ o ∈ b'.tx.body.outputs, o.amount < 2 ^ 63) : b'.tx.body.fee < 2 ^ 63 := by
  obtain ⟨-, eA, eB⟩ := balanceLoop_pays k n force _ _ _ _ h
  obtain ⟨outs, fee, e⟩ := balance_frame k b b' n force _ h
  have e1 : b'.inputTotal = b.inputTotal := by rw [e]; rfl
  have e2 : b'.depositTotal = b.depositTotal := by rw [e]; rfl
  obtain ⟨bu, hc, u1, u2, u3, u4, u5, u6⟩ := balance_last k n force _ _ _ _ h
  obtain ⟨K, hK, hfix⟩ := calculateFee_ok k bu n _ hc
  have hK' : ∀ g, sizeWithFee (dummyTx b'.tx n) g = .ok (K + uintSize g) := by
    intro g
    have := hK g
    rw [u5] at this
    exact this
  have hKm := hm _ ((txSize_iff' _ _).mpr (hK' _))
  have hpos := uintSize_pos (dummyTx b'.tx n).body.fee
  have h9 : ∀ x, uintSize x ≤ 9 := by intro x; unfold uintSize; (repeat' split) <;> omega
  rw [u3, u4, eA, eB] at hfix
  unfold minFee at hfit
  have hmul : b.minFeeA.toNat * (K + uintSize bu.tx.body.fee) ≤ b.minFeeA.toNat * (m + 8) :=
    Nat.mul_le_mul_left _ (by have := h9 bu.tx.body.fee; omega)
  have hpos8 : b.minFeeA.toNat * 1 ≤ b.minFeeA.toNat * (m + 8) := Nat.mul_le_mul_left _ (by omega)
  have hfee : bu.tx.body.fee < 2 ^ 62 := by
    clear u6
    have a64 : b.minFeeA < 2 ^ 64 := by omega
    have b64 : b.minFeeB < 2 ^ 64 := by omega
    rw [u64_of_nonneg hA a64, u64_of_nonneg hB b64] at hfix
    rw [← hfix]
    unfold feeFn feeFor
    exact Nat.lt_of_le_of_lt (Nat.mod_le _ _) (by omega)
  rcases u6 with u6 | ⟨c, hc0, hch, u6⟩
  · omega
  · obtain ⟨g1, g2⟩ := change_ok bu c hch
    have ho' : ∀ o ∈ bu.tx.body.outputs, o.amount < 2 ^ 63 := by
      intro o h; rw [u5] at h; exact ho o h
    rw [outs_sum _ ho', i64_small (show bu.tx.body.fee < 2 ^ 63 by omega)] at g1
    rw [u6, u64_of_nonneg (by omega) (by omega)]
    refine Nat.lt_of_le_of_lt (Nat.mod_le _ _) ?_
    omega

/-- The body of a successfully balanced transaction can be written, so it has an id. -/
theorem balanced_getID (E : Env) (k n : Nat) (force : Bool) (b0 b1 : Builder)
    (h1 : balance k b0 n force = some (b1, .ok ())) :
    ∃ bytes, b1.tx.body.serialize = .ok bytes ∧ getID E b1 = .ok (E.S.hash bytes) := by
  obtain ⟨⟨f, hf, hcf⟩, -, -⟩ := balanceLoop_pays k n force _ _ _ _ h1
  obtain ⟨K, hK, -⟩ := calculateFee_ok k b1 n f hcf
  obtain ⟨full, hfull, -⟩ := (txSize_iff' _ _).mpr (hK (dummyTx b1.tx n).body.fee)
  obtain ⟨bytes, hbytes⟩ := body_serialize_of _ _ hfull
  have hbytes : b1.tx.body.serialize = .ok bytes := hbytes
  exact ⟨bytes, hbytes, by unfold getID; rw [hbytes]; rfl⟩

/-- A signature made with one of the keys passes the network's check. -/
theorem signed_verifies (E : Env) (N : Crypto) (hN : SameCrypto E N) (id : Bytes) (keys : List SKey)
    (hcan : ∀ key ∈ keys, CanSign E id key) (w : VkeyWitness)
    (h : ∃ key ∈ keys, key.pub E = .ok w.vkey ∧ key.sign E id = .ok w.sig) : N.verify w.vkey id w.sig = true := by
  obtain ⟨key, hk, h2, h3⟩ := h
  have hck := hcan key hk
  cases key with
  | ed seed =>
    rw [← hN.ed25519, ← Out.ok.inj h2, ← Out.ok.inj h3]
    exact E.S.verify_sign seed _ hck.1 hck.2
  | bip kk =>
    rw [← hN.extended]
    obtain ⟨p, hp, -, hv⟩ := Bip32.C33_sign_verifies E.C E.P kk _ w.sig h3
    simp only [SKey.pub, hp, Out.ok_bind, Out.ok.injEq] at h2
    rw [← h2]; exact hv

/-- **C91**, exactly, for signatures made in any way: a transaction prepared by someone who can sign for the key hashes
`own`, balanced successfully for `n` witnesses, with any set of at most `n` witnesses (32-byte
key, 64-byte signature) that verify for the id the builder shows and that include all keys of `own`: the network accepts it
if and only if the builder has counted the money coming in rightly. -/
theorem C91_any_witnesses_iff (E : Env) (N : Crypto) (hh : N.bodyHash = E.S.hash) (own : Bytes → Prop) (pp : Params)
    (st : State) (k n : Nat) (force : Bool) (ops : List Op) (b0 b1 : Builder)
    (h0 : run E k {} ops = some b0) (h1 : balance k b0 n force = some (b1, .ok ()))
    (hc : PreparedFor own pp st ops) (hmin : pp.minUtxo ≤ 1000000)
    (hmax : ∀ ws s, ws.length = n → (∀ w ∈ ws, WitnessSized w) → TxSize (withWitnesses b1.tx ws) s → s ≤ pp.maxTxSize)
    (hfit : minFee pp.minFeeA pp.minFeeB (pp.maxTxSize + 8) < 2 ^ 62)
    (id : Bytes) (hid : getID E b1 = .ok id) (ws : List VkeyWitness) (hwn : ws.length ≤ n)
    (hws : ∀ w ∈ ws, WitnessSized w) (hver : ∀ w ∈ ws, N.verify w.vkey id w.sig = true)
    (hold : ∀ h, own h → ∃ w ∈ ws, N.keyHash w.vkey = h) :
    Accepts N pp st (withWitnesses b1.tx ws) ↔ CountedRight pp st ops b0.tx.body := by
  obtain ⟨c1, c2, c3, ⟨t, ct, c4⟩, c5, cA, cB, c6⟩ := careful_body E own pp st k n force ops b0 b1 h0 h1 hc
  obtain ⟨hpays, eA, eB⟩ := balanceLoop_pays k n force _ _ _ _ h1
  obtain ⟨f, hf, hcf⟩ := hpays
  obtain ⟨K, hK, -⟩ := calculateFee_ok k b1 n f hcf
  obtain ⟨bytes, hbytes, hid'⟩ := balanced_getID E k n force b0 b1 h1
  obtain rfl : id = E.S.hash bytes := Out.ok.inj (hid.symm.trans hid')
  have hout : ∀ o ∈ b1.tx.body.outputs, pp.minUtxo ≤ o.amount ∧ o.amount < 2 ^ 63 ∧ networkOf o.address = some st.network := by
    intro o ho
    rcases c5 o ho with h | ⟨h, h', h'' | ⟨o', ho', e⟩⟩
    · exact hc.outputs o h
    · exact ⟨by omega, h', by rw [h'']; exact hc.change⟩
    · exact ⟨by omega, h', by rw [← e]; exact (hc.outputs o' ho').2.2⟩
  have hin : ∀ u ∈ inputsOf ops, u.value = st.value (spends u) := by
    intro u hu
    obtain ⟨addr, h, e, -⟩ := hc.inputs u hu
    unfold State.value; rw [e]; rfl
  have hdummy : ∀ s, TxSize (dummyTx b1.tx n) s → s ≤ pp.maxTxSize := by
    intro s hs
    refine hmax (dummyTx b1.tx n).wits.vkeys _ (by simp [dummyTx]) ?_ hs
    intro w hw
    have := List.eq_of_mem_replicate hw
    subst this; exact ⟨by simp, by simp⟩
  have hA : 0 ≤ b0.minFeeA ∧ b0.minFeeA < 2 ^ 63 := by
    rw [cA]
    unfold minFee at hfit
    have : pp.minFeeA * 8 ≤ pp.minFeeA * (pp.maxTxSize + 8) := Nat.mul_le_mul_left _ (by omega)
    omega
  have hB : 0 ≤ b0.minFeeB := by rw [cB]; omega
  have hfee : b1.tx.body.fee < 2 ^ 63 := by
    obtain ⟨t1, t2⟩ := C51_totals E k ops b0 h0
    have a1 := hc.amounts.1
    have a2 := hc.amounts.2
    rw [i64_small (by omega)] at t1 t2
    refine balance_fee_lt k n force b0 b1 pp.maxTxSize h1 hA.1 hB hdummy ?_ ?_ ?_ (fun o ho => (hout o ho).2.1)
    · rw [cA, cB, Int.toNat_natCast, Int.toNat_natCast]; exact hfit
    · rw [t1]; omega
    · rw [t2]; omega
  have hbal := (C52_iff E k ops b0 b1 n force st.value pp.keyDeposit h0 h1
    (by have := hc.amounts.1; omega) hc.amounts.2 hfee (fun o ho => (hout o ho).2.1)).2
  -- the size of the signed transaction
  obtain ⟨s, hs1, hs2⟩ := size_fewer b1.tx ws.length n hwn b1.tx.body.fee _ (hK b1.tx.body.fee)
  have hsize : TxSize (withWitnesses b1.tx ws) s := by
    rw [txSize_iff', size_wits b1.tx ws hws]; exact hs1
  have hdummy := hdummy (K + uintSize b1.tx.body.fee) ((txSize_iff' _ _).mpr (hK _))
  have hpay := C53_balance k b0 b1 n force h1 ws hwn hws s hA.1 hB hA.2 hsize (by
    intro s' hs'
    rw [txSize_iff', hK] at hs'
    obtain rfl := Out.ok.inj hs'
    rw [cA, cB, Int.toNat_natCast, Int.toNat_natCast]
    refine Nat.lt_of_le_of_lt ?_ (Nat.lt_trans hfit (by decide))
    unfold minFee
    exact Nat.add_le_add_right (Nat.mul_le_mul_left _ (Nat.add_le_add_right hdummy _)) _)
  rw [cA, cB, Int.toNat_natCast, Int.toNat_natCast] at hpay
  obtain ⟨t', ht', hslot⟩ := hc.ttl
  have hbal : consumed st.value pp.keyDeposit b1.tx.body = produced (totalDeposits pp st b1.tx.body.certificates) b1.tx.body ↔
      CountedRight pp st ops b0.tx.body := by
    obtain ⟨outs, fee, e⟩ := balance_frame k b0 b1 n force _ h1
    have e1 : b1.tx.body.inputs = b0.tx.body.inputs := by rw [e]; rfl
    have e2 : b1.tx.body.withdrawals = b0.tx.body.withdrawals := by rw [e]; rfl
    have e3 : b1.tx.body.certificates = b0.tx.body.certificates := by rw [e]; rfl
    unfold CountedRight
    rw [c3, ← hc.deposits, ← e1, ← e2, ← e3]; exact hbal
  refine ⟨fun ha => hbal.mp ha.valuePreserved, fun hcount => ?_⟩
  constructor
  · change st.slot ≤ b1.tx.body.ttl
    rw [ht'] at ct
    rw [c4, ← Option.some.inj ct]; exact hslot
  · intro he
    obtain ⟨u, l, hu⟩ := List.exists_cons_of_ne_nil hc.someInput
    have : spends u ∈ b1.tx.body.inputs := (c1 _).mpr (by rw [hu]; simp)
    change b1.tx.body.inputs = [] at he
    rw [he] at this; cases this
  · intro i hi
    obtain ⟨u, hu, rfl⟩ := List.mem_map.mp ((c1 i).mp hi)
    obtain ⟨addr, h, e1, e2, -⟩ := hc.inputs u hu
    exact ⟨addr, u.value, e1, by rw [e2]; rfl⟩
  · intro w hw
    obtain ⟨h, e, -⟩ := hc.withdrawals w (c2 w hw)
    rw [e]; rfl
  · exact hbal.mpr hcount
  · exact fun o ho => (hout o ho).1
  · refine ⟨fun o ho => (hout o ho).2.2, fun w hw => ?_⟩
    obtain ⟨h, -, -, e⟩ := hc.withdrawals w (c2 w hw)
    exact e
  · exact ⟨s, hsize, hpay, by omega⟩
  · refine ⟨bytes, hbytes, ?_, ?_⟩
    · intro w hw
      rw [hh]
      exact hver w hw
    · intro h hh
      change h ∈ keysNeeded st b1.tx.body at hh
      unfold keysNeeded at hh
      rcases List.mem_append.mp hh with hh | hh
      · rcases List.mem_append.mp hh with hh | hh
        · obtain ⟨i, hi, e⟩ := List.mem_filterMap.mp hh
          obtain ⟨u, hu, rfl⟩ := List.mem_map.mp ((c1 i).mp hi)
          obtain ⟨addr, h', e1, e2, e3⟩ := hc.inputs u hu
          rw [e1] at e
          change paymentKey addr = some h at e
          rw [e2] at e
          rw [← Option.some.inj e]; exact hold _ e3
        · obtain ⟨w, hw, e⟩ := List.mem_filterMap.mp hh
          obtain ⟨h', e1, e2, -⟩ := hc.withdrawals w (c2 w hw)
          rw [e1] at e
          rw [← Option.some.inj e]; exact hold _ e2
      · rw [c3] at hh
        obtain ⟨c, hcm, hk⟩ := List.mem_flatMap.mp hh
        exact hold _ (hc.certificates c hcm h hk)

/-- Without deregistration calls there are no deregistration certificates. -/
theorem no_deregistrations (E : Env) (k : Nat) (ops : List Op) (b : Builder) (h : run E k {} ops = some b)
    (hdereg : ∀ a, Op.stakeDeregistration a ∉ ops) : deregistrations b.tx.body.certificates = 0 := by
  obtain ⟨-, -, g3, -⟩ := run_facts E k ops {} b h
  rw [g3]
  unfold deregistrations
  rw [List.nil_append, List.countP_eq_zero]
  intro c hc
  obtain ⟨⟨c', d⟩, hm, rfl⟩ := List.mem_map.mp hc
  clear * - hm hdereg
  induction ops with
  | nil => cases hm
  | cons op ops ih =>
    have ih := ih fun a ha => hdereg a (by simp [ha])
    cases op <;> simp only [certsOf, List.mem_cons] at hm
    case stakeDeregistration a => exact absurd (by simp) (hdereg a)
    all_goals first
      | exact ih hm
      | (rcases hm with hm | hm
         · injection hm with h1 h2; subst h1; simp
         · exact ih hm)

/-- A careful preparation is counted right. -/
theorem careful_counted (E : Env) (own : Bytes → Prop) (pp : Params) (st : State) (k : Nat) (ops : List Op)
    (b0 : Builder) (h0 : run E k {} ops = some b0) (hc : CarefulFor own pp st ops) : CountedRight pp st ops b0.tx.body := by
  have hin : ∀ u ∈ inputsOf ops, u.value = st.value (spends u) := by
    intro u hu
    obtain ⟨addr, h, e, -⟩ := hc.inputs u hu
    unfold State.value; rw [e]; rfl
  have hs : addedSum ops < 2 ^ 63 := by have := hc.amounts.1; omega
  obtain ⟨t1, -⟩ := C51_totals E k ops b0 h0
  obtain ⟨t2, -⟩ := C51_partial E k ops b0 st.value h0 hin hc.inputsOnce hc.withdrawalsOnce hs hc.amounts.2
  rw [i64_small hs] at t1
  unfold CountedRight
  rw [no_deregistrations E k ops b0 h0 hc.noDeregistration, Nat.mul_zero]
  omega

theorem deregistration_mem (ops : List Op) (a : Single) (ha : Op.stakeDeregistration a ∈ ops) :
    Certificate.stakeDereg ⟨.keyHash, a.key.take 28⟩ ∈ (certsOf ops).map (·.1) := by
  induction ops with
  | nil => cases ha
  | cons op ops ih =>
    rcases List.mem_cons.mp ha with rfl | ha
    · simp [certsOf]
    · have := ih ha
      cases op <;> simp only [certsOf, List.map_cons, List.mem_cons] <;> first | exact this | exact Or.inr this

/-- **C91**: when the builder counts right.  Without deregistrations: exactly when every input or withdrawal given again later
is worth nothing.  With every input and withdrawal address given once: exactly when there is no deregistration (or the
key deposit is 0). -/
theorem C91_counted_iff (E : Env) (own : Bytes → Prop) (pp : Params) (st : State) (k : Nat) (ops : List Op)
    (b0 : Builder) (h0 : run E k {} ops = some b0) (hc : PreparedFor own pp st ops) :
    ((∀ a, Op.stakeDeregistration a ∉ ops) → (CountedRight pp st ops b0.tx.body ↔
      (∀ pre i post, (inputsOf ops).map spends = pre ++ i :: post → i ∈ post → st.value i = 0) ∧
      ∀ pre a n post, withdrawalsOf ops = pre ++ (a, n) :: post → a ∈ post.map (·.1) → n = 0)) ∧
    (((inputsOf ops).map spends).Nodup → ((withdrawalsOf ops).map (·.1)).Nodup → (CountedRight pp st ops b0.tx.body ↔
      pp.keyDeposit = 0 ∨ ∀ a, Op.stakeDeregistration a ∉ ops)) := by
  have hin : ∀ u ∈ inputsOf ops, u.value = st.value (spends u) := by
    intro u hu
    obtain ⟨addr, h, e, -⟩ := hc.inputs u hu
    unfold State.value; rw [e]; rfl
  have hs : addedSum ops < 2 ^ 63 := by have := hc.amounts.1; omega
  obtain ⟨t1, -⟩ := C51_totals E k ops b0 h0
  rw [i64_small hs] at t1
  unfold CountedRight
  refine ⟨fun hd => ?_, fun hi hw => ?_⟩
  · rw [no_deregistrations E k ops b0 h0 hd, Nat.mul_zero, Nat.add_zero, ← (C51_iff E k ops b0 st.value h0 hin hs).2, t1]
    omega
  · obtain ⟨t2, -⟩ := C51_partial E k ops b0 st.value h0 hin hi hw hs hc.amounts.2
    rw [t1] at t2
    constructor
    · intro h
      have hz : pp.keyDeposit * deregistrations b0.tx.body.certificates = 0 := by omega
      rcases Nat.mul_eq_zero.mp hz with hz | hz
      · exact Or.inl hz
      · refine Or.inr fun a ha => ?_
        obtain ⟨-, -, g3, -⟩ := run_facts E k ops {} b0 h0
        rw [g3] at hz
        unfold deregistrations at hz
        rw [List.nil_append, List.countP_eq_zero] at hz
        exact hz _ (deregistration_mem ops a ha) rfl
    · rintro (hz | hd)
      · rw [hz, Nat.zero_mul]; omega
      · rw [no_deregistrations E k ops b0 h0 hd, Nat.mul_zero]; omega

/-- **C91**, exactly: a transaction prepared with the wallet's own money, balanced successfully for at least as many witnesses
as there are keys, and signed with the wallet's keys is accepted by the network if and only if the builder has counted the money
coming in rightly.  (It does for careful preparations; it does not when refunds of deregistrations, which it forgets, and
inputs or withdrawals given twice, which it counts twice, do not happen to be equal.) -/
theorem C91_accepted_iff (E : Env) (N : Crypto) (hN : SameCrypto E N) (pp : Params) (st : State) (k n : Nat)
    (force : Bool) (ops : List Op) (keys : List SKey) (b0 b1 : Builder)
    (h0 : run E k {} ops = some b0) (h1 : balance k b0 n force = some (b1, .ok ()))
    (hc : PreparedFor (Holds E N keys) pp st ops) (hn : keys.length ≤ n)
    (hsign : ∀ id, getID E b1 = .ok id → ∀ key ∈ keys, CanSign E id key)
    (hmin : pp.minUtxo ≤ 1000000)
    (hmax : ∀ ws s, ws.length = n → (∀ w ∈ ws, WitnessSized w) → TxSize (withWitnesses b1.tx ws) s → s ≤ pp.maxTxSize)
    (hfit : minFee pp.minFeeA pp.minFeeB (pp.maxTxSize + 8) < 2 ^ 62) :
    ∃ b2, run E k {} (ops ++ .balance n force :: keys.map .sign) = some b2 ∧ b2.tx.body = b1.tx.body ∧
      (Accepts N pp st b2.tx ↔ CountedRight pp st ops b0.tx.body) := by
  obtain ⟨-, -, -, -, -, -, -, c6⟩ := careful_body E _ pp st k n force ops b0 b1 h0 h1 hc
  obtain ⟨bytes, hbytes, hid⟩ := balanced_getID E k n force b0 b1 h1
  have hcan := hsign _ hid
  obtain ⟨ws, r1, r2, r3, -, r5⟩ := sign_all E k _ keys b1 hid hcan
  rw [c6] at r2 r3
  have hws : ∀ w ∈ ws, WitnessSized w := by
    intro w hw
    rcases r3 w hw with h | ⟨key, hk, h2, h3⟩
    · cases h
    · obtain ⟨pub, sig, g1, g2, g3, g4⟩ := canSign_ok E _ key (hcan key hk)
      rw [h2] at g1; rw [h3] at g2
      unfold WitnessSized
      rw [Out.ok.inj g1, Out.ok.inj g2]; exact ⟨g3, g4⟩
  have hwn : ws.length ≤ n := by simp only [List.length_nil, Nat.zero_add] at r2; omega
  refine ⟨{ b1 with tx := withWitnesses b1.tx ws }, ?_, rfl, ?_⟩
  · rw [run_append, h0]
    simp only [run, step, h1]
    exact r1
  refine C91_any_witnesses_iff E N hN.hash _ pp st k n force ops b0 b1 h0 h1 hc hmin hmax hfit _ hid ws hwn hws ?_ ?_
  · exact fun w hw => signed_verifies E N hN _ keys hcan w ((r3 w hw).resolve_left (by simp))
  · rintro h ⟨key, hk, pub, hp, rfl⟩
    obtain ⟨w, hw, e⟩ := r5 key hk
    rw [hp] at e
    exact ⟨w, hw, by rw [← Out.ok.inj e]⟩

/-- **C91**: a transaction prepared carefully (`Careful`: every input and withdrawal address once, no deregistration), balanced
successfully for at least as many witnesses as there are keys, and signed with the wallet's keys is accepted by the network. -/
theorem C91_careful (E : Env) (N : Crypto) (hN : SameCrypto E N) (pp : Params) (st : State) (k n : Nat)
    (force : Bool) (ops : List Op) (keys : List SKey) (b0 b1 : Builder)
    (h0 : run E k {} ops = some b0) (h1 : balance k b0 n force = some (b1, .ok ()))
    (hc : Careful E N pp st keys ops) (hn : keys.length ≤ n)
    (hsign : ∀ id, getID E b1 = .ok id → ∀ key ∈ keys, CanSign E id key)
    (hmin : pp.minUtxo ≤ 1000000)
    (hmax : ∀ ws s, ws.length = n → (∀ w ∈ ws, WitnessSized w) → TxSize (withWitnesses b1.tx ws) s → s ≤ pp.maxTxSize)
    (hfit : minFee pp.minFeeA pp.minFeeB (pp.maxTxSize + 8) < 2 ^ 62) :
    ∃ b2, run E k {} (ops ++ .balance n force :: keys.map .sign) = some b2 ∧ b2.tx.body = b1.tx.body ∧
      Accepts N pp st b2.tx := by
  obtain ⟨b2, h2, h3, h4⟩ := C91_accepted_iff E N hN pp st k n force ops keys b0 b1 h0 h1 hc.toPreparedFor hn hsign hmin hmax hfit
  exact ⟨b2, h2, h3, h4.mpr (careful_counted E _ pp st k ops b0 h0 hc)⟩

/-- With a stake key deregistration in the history, the transaction that `balance` reports as balanced is
rejected, whatever the signatures: the refund is not spent. -/
theorem C91_deregistration_rejected (E : Env) (N : Crypto) (pp : Params) (st : State) (k n : Nat) (force : Bool)
    (ops : List Op) (b0 b1 : Builder) (h0 : run E k {} ops = some b0) (h1 : balance k b0 n force = some (b1, .ok ()))
    (hv : ∀ u ∈ inputsOf ops, u.value = st.value (spends u))
    (hi : ((inputsOf ops).map spends).Nodup) (hw : ((withdrawalsOf ops).map (·.1)).Nodup)
    (hs : addedSum ops < 2 ^ 63) (hd : depositSum ops < 2 ^ 63)
    (hdep : depositSum ops = totalDeposits pp st ((certsOf ops).map (·.1)))
    (hf : b1.tx.body.fee < 2 ^ 63) (ho : ∀ o ∈ b1.tx.body.outputs, o.amount < 2 ^ 63)
    (hk : 0 < pp.keyDeposit) (a : Single) (ha : Op.stakeDeregistration a ∈ ops) :
    ∀ ws, ¬ Accepts N pp st (withWitnesses b1.tx ws) := by
  intro ws hacc
  obtain ⟨-, -, g3, -⟩ := run_facts E k ops {} b0 h0
  obtain ⟨outs, fee, e⟩ := balance_frame k b0 b1 n force _ h1
  have e3 : b1.tx.body.certificates = (certsOf ops).map (·.1) := by
    have : b1.tx.body.certificates = b0.tx.body.certificates := by rw [e]; rfl
    rw [this, g3]; rfl
  have hmem : Certificate.stakeDereg ⟨.keyHash, a.key.take 28⟩ ∈ (certsOf ops).map (·.1) := by
    clear * - ha
    induction ops with
    | nil => cases ha
    | cons op ops ih =>
      rcases List.mem_cons.mp ha with rfl | ha
      · simp [certsOf]
      · have := ih ha
        cases op <;> simp only [certsOf, List.map_cons, List.mem_cons] <;> first | exact this | exact Or.inr this
  have hpos : 0 < deregistrations b1.tx.body.certificates := by
    unfold deregistrations
    rw [List.countP_pos_iff, e3]
    exact ⟨_, hmem, rfl⟩
  have := C52_refunds_ignored E k ops b0 b1 n force st.value pp.keyDeposit h0 h1 hv hi hw hs hd hf ho hk hpos
  have hval := hacc.valuePreserved
  change consumed st.value pp.keyDeposit b1.tx.body = produced (totalDeposits pp st b1.tx.body.certificates) b1.tx.body at hval
  rw [e3, ← hdep] at hval
  omega

/-- **C91**: with enough funds nothing can go wrong: after a preparation that leaves at least the fee,
`balance` (with `force_waste_change`) succeeds, and the signed transaction makes every payment
asked for, and is accepted exactly if the builder has counted right. -/
theorem C91_funds_suffice (E : Env) (N : Crypto) (hN : SameCrypto E N) (pp : Params) (st : State) (k : Nat)
    (ops : List Op) (keys : List SKey) (b0 : Builder) (h0 : run E k {} ops = some b0)
    (hc : PreparedFor (Holds E N keys) pp st ops) (hk : 12 ≤ k) (hB : 2 ^ 16 ≤ pp.minFeeB) (hmin : pp.minUtxo ≤ 1000000)
    (hfit : minFee pp.minFeeA pp.minFeeB (pp.maxTxSize + 8) < 2 ^ 31)
    (ws : List VkeyWitness) (hl : ws.length = keys.length) (hws : ∀ w ∈ ws, WitnessSized w)
    (hmax : ∀ s, TxSize (withWitnesses (addOutput b0 b0.changeAddr (2 ^ 63 - 1)).tx ws) s → s + 12 ≤ pp.maxTxSize)
    (f s : Nat) (hs : TxSize (withFee (withWitnesses b0.tx ws) f) s) (hf : f = minFee pp.minFeeA pp.minFeeB s)
    (hfunds : depositSum ops + f + outputSum (outputsOf ops) ≤ addedSum ops)
    (hsign : ∀ b1 id, balance k b0 keys.length true = some (b1, .ok ()) → getID E b1 = .ok id →
      ∀ key ∈ keys, CanSign E id key) :
    ∃ b2, run E k {} (ops ++ .balance keys.length true :: keys.map .sign) = some b2 ∧ (Accepts N pp st b2.tx ↔ CountedRight pp st ops b0.tx.body) ∧
      (b2.tx.body.outputs = outputsOf ops ∨ ∃ x, b2.tx.body.outputs = outputsOf ops ++ [⟨changeOf ops [], x⟩]) := by
  obtain ⟨-, -, -, -, -, -, -, -, g9⟩ := run_facts E k ops {} b0 h0
  obtain ⟨g9, -⟩ := g9 hc.noComputedFee
  have g9 : b0.tx.body.outputs = outputsOf ops := by rw [g9]; rfl
  obtain ⟨p1, p2⟩ := run_params E k ops hc.noComputedFee {} b0 h0
  change (b0.minFeeA, b0.minFeeB) = feeParams ops (44, 155381) at p2
  rw [hc.fees] at p2
  have cA : b0.minFeeA = pp.minFeeA := (Prod.mk.inj p2).1
  have cB : b0.minFeeB = pp.minFeeB := (Prod.mk.inj p2).2
  change b0.changeAddr = changeOf ops [] at p1
  obtain ⟨t1, t2⟩ := C51_totals E k ops b0 h0
  have a1 := hc.amounts.1
  have a2 := hc.amounts.2
  rw [i64_small (by omega)] at t1 t2
  have hA31 : pp.minFeeA < 2 ^ 31 := by
    unfold minFee at hfit
    have : pp.minFeeA * 8 ≤ pp.minFeeA * (pp.maxTxSize + 8) := Nat.mul_le_mul_left _ (by omega)
    omega
  have ho : ∀ o ∈ b0.tx.body.outputs, o.amount < 2 ^ 63 := by
    intro o h; rw [g9] at h; exact (hc.outputs o h).2.1
  have hfit' : ∀ s, TxSize (withWitnesses (addOutput b0 b0.changeAddr (2 ^ 63 - 1)).tx ws) s →
      minFee b0.minFeeA.toNat b0.minFeeB.toNat (s + 12) < 2 ^ 31 := by
    intro s' hs'
    have := hmax s' hs'
    rw [cA, cB, Int.toNat_natCast, Int.toNat_natCast]
    refine Nat.lt_of_le_of_lt ?_ hfit
    unfold minFee
    exact Nat.add_le_add_right (Nat.mul_le_mul_left _ (by omega)) _
  obtain ⟨b1, h1, hout⟩ := C67_force_balances k keys.length b0 ws hl hws hk (by omega) (by omega) (by omega) hfit'
    (depositSum ops) t2 ho (by rw [t1]; omega) f s hs (by rw [cA, cB, Int.toNat_natCast, Int.toNat_natCast]; exact hf)
    (by rw [t1, g9]; omega)
  have hcs : ∃ cs, certsEntry b0.tx.body.certificates = .ok cs := by
    cases hcs : certsEntry b0.tx.body.certificates with
    | ok cs => exact ⟨cs, rfl⟩
    | throw e =>
      rw [txSize_iff] at hs
      have : sizeWithFee (withWitnesses b0.tx ws) f = .throw e := by
        unfold sizeWithFee Tx.serialize Tx.ser TxBody.ser withWitnesses
        dsimp only; rw [hcs]; rfl
      rw [this] at hs; cases hs
    | ub =>
      rw [txSize_iff] at hs
      have : sizeWithFee (withWitnesses b0.tx ws) f = .ub := by
        unfold sizeWithFee Tx.serialize Tx.ser TxBody.ser withWitnesses
        dsimp only; rw [hcs]; rfl
      rw [this] at hs; cases hs
  obtain ⟨cs, hcs⟩ := hcs
  have hbig := hmax (G b0 ws.length cs (b0.tx.body.outputs ++ [⟨b0.changeAddr, 2 ^ 63 - 1⟩]) + uintSize b0.tx.body.fee) (by
    rw [txSize_iff', size_wits _ ws hws]
    exact size_G b0 ws.length cs hcs _ _)
  have hupos := uintSize_pos b0.tx.body.fee
  have hdust := C68_no_dust k b0 b1 keys.length true _ h1
  have hGmax : G b0 ws.length cs b1.tx.body.outputs ≤
      G b0 ws.length cs (b0.tx.body.outputs ++ [⟨b0.changeAddr, 2 ^ 63 - 1⟩]) := by
    rcases hout with hout | ⟨x, hout⟩
    · rw [hout]; exact G_le b0 ws.length cs _ _
    · rw [hout]
      refine G_mono b0 ws.length cs _ _ ?_
      rcases hdust ⟨b0.changeAddr, x⟩ (by rw [hout]; simp) with h | h
      · have := ho _ h; dsimp only at this; omega
      · have := h.2.1; dsimp only at this; omega
  obtain ⟨b2, r1, r2, r3⟩ := C91_accepted_iff E N hN pp st k keys.length true ops keys b0 b1 h0 h1 hc (Nat.le_refl _)
    (fun id hid => hsign b1 id h1 hid) hmin (by
      intro ws' s' hl' hws' hs'
      rw [txSize_iff', size_wits _ ws' hws'] at hs'
      obtain ⟨outs, fee, e⟩ := balance_frame k b0 b1 _ true _ h1
      have hsz : ∀ g, sizeWithFee (dummyTx b1.tx ws'.length) g = .ok (G b0 ws'.length cs b1.tx.body.outputs + uintSize g) := by
        intro g
        rw [← size_G b0 ws'.length cs hcs]
        rw [e]; rfl
      rw [hsz, hl', ← hl] at hs'
      have hs' := Out.ok.inj hs'
      have h9 : uintSize (withWitnesses b1.tx ws').body.fee ≤ 9 := uintSize_le _
      omega) (Nat.lt_trans hfit (by decide))
  refine ⟨b2, r1, r3, ?_⟩
  rw [r2, ← g9, ← p1]; exact hout

/-! ### A concrete case -/

/-- Library and network with libsodium's Ed25519 over any curve meet `SameCrypto`. -/
theorem sameCrypto_sodium (C : Curve) (P : Bip32.Prims) (hash keyHash : Bytes → Bytes) (hh : ∀ x, (hash x).length = 32) :
    SameCrypto ⟨Ed25519.sigHash C P.sha512 hash hh, C, P⟩
      ⟨keyHash, hash, fun pub msg sig => Ed.verifyDetached C P.sha512 sig msg pub⟩ := ⟨rfl, fun _ _ _ => rfl, fun _ _ _ => rfl⟩

def toyWalletEnv : Env :=
  ⟨Ed25519.sigHash toyCurve Bip32.toyPrims.sha512 (fun x => (x ++ List.replicate 32 0).take 32) (by simp), toyCurve, Bip32.toyPrims⟩

def toyNetwork : Crypto :=
  ⟨fun _ => List.replicate 28 9, fun x => (x ++ List.replicate 32 0).take 32,
    fun pub msg sig => Ed.verifyDetached toyCurve Bip32.toyPrims.sha512 sig msg pub⟩

/-- The parameters of mainnet when Shelley began. -/
def toyParams : Params := ⟨44, 155381, 2000000, 500000000, 1000000, 16384⟩

def toyState : State where
  slot := 900
  network := 1
  utxo i := if i = ⟨List.replicate 32 1, 0⟩ then some (0x61 :: List.replicate 28 9, 10000000) else none
  pools := []

/-- Register and delegate a stake key, withdraw its rewards and make a payment. -/
def toyOps : List Op :=
  [.addInput ⟨List.replicate 32 1, 0, 10000000⟩, .addWithdrawal ⟨0xE1, List.replicate 28 9⟩ 500000,
    .stakeRegistration ⟨0xE1, List.replicate 28 9⟩ 2000000, .stakeDelegation ⟨0xE1, List.replicate 28 9⟩ (List.replicate 28 4),
    .addOutputEnterprise ⟨0x61, List.replicate 28 2⟩ 5000000, .setChangeEnterprise ⟨0x61, List.replicate 28 9⟩, .setTtl 1000]

def toyKeys : List SKey := [.ed (List.replicate 32 7)]

theorem toyHolds : Holds toyWalletEnv toyNetwork toyKeys (List.replicate 28 9) :=
  ⟨_, List.mem_singleton_self _, _, rfl, rfl⟩

theorem toyCareful : Careful toyWalletEnv toyNetwork toyParams toyState toyKeys toyOps where
  inputs u hu := by
    obtain rfl := List.mem_singleton.mp hu
    exact ⟨0x61 :: List.replicate 28 9, List.replicate 28 9, by decide +kernel, by decide +kernel, toyHolds⟩
  inputsOnce := by decide +kernel
  someInput := by decide +kernel
  withdrawals w hw := by
    obtain rfl := List.mem_singleton.mp hw
    exact ⟨List.replicate 28 9, by decide +kernel, toyHolds, by decide +kernel⟩
  withdrawalsOnce := by decide +kernel
  certificates c hc h hh := by
    rcases List.mem_cons.mp hc with rfl | hc
    · cases hh
    · obtain rfl := List.mem_singleton.mp hc
      obtain rfl := List.mem_singleton.mp hh
      exact toyHolds
  noDeregistration a h := by simp [toyOps] at h
  deposits := by decide +kernel
  outputs o ho := by
    obtain rfl := List.mem_singleton.mp ho
    decide +kernel
  ttl := ⟨1000, rfl, by decide⟩
  change := by decide +kernel
  fees := rfl
  amounts := by decide +kernel
  noComputedFee op h := by
    simp only [toyOps, List.mem_cons, List.not_mem_nil, or_false] at h
    rcases h with h | h | h | h | h | h | h <;> subst h <;> simp

def toyBuilder : Builder := ((run toyWalletEnv 12 {} toyOps).getD {})

/-- The hypotheses of `C91_funds_suffice` (and with it those of `C91_careful`) are met. -/
theorem toyAccepted : ∃ b2, run toyWalletEnv 12 {} (toyOps ++ [.balance 1 true, .sign (.ed (List.replicate 32 7))]) = some b2 ∧
    Accepts toyNetwork toyParams toyState b2.tx := by
  have h0 : run toyWalletEnv 12 {} toyOps = some toyBuilder := rfl
  obtain ⟨b2, r1, r2, -⟩ := C91_funds_suffice toyWalletEnv toyNetwork (sameCrypto_sodium _ _ _ _ _) toyParams toyState 12
    toyOps toyKeys toyBuilder h0 toyCareful.toPreparedFor (by decide) (by decide) (by decide) (by decide)
    [⟨List.replicate 32 0, List.replicate 64 0⟩] rfl (by simp [WitnessSized]) (by
      intro s hs
      rw [txSize_iff'] at hs
      have : sizeWithFee (withWitnesses (addOutput toyBuilder toyBuilder.changeAddr (2 ^ 63 - 1)).tx
        [⟨List.replicate 32 0, List.replicate 64 0⟩]) 0 = .ok 369 := by decide +kernel
      have hs' : sizeWithFee _ 0 = .ok s := hs
      rw [this] at hs'
      rw [← Out.ok.inj hs']; decide) 169989 332 (by rw [txSize_iff]; decide +kernel) (by decide +kernel) (by decide +kernel)
    (by
      intro b1 id _ _ key hk
      obtain rfl := List.mem_singleton.mp hk
      refine ⟨by decide, ?_⟩
      intro h
      have h : ellL ∣ leNat (1 :: List.replicate 63 0) := h
      rw [show leNat (1 :: List.replicate 63 0) = 1 by decide +kernel] at h
      exact absurd (Nat.le_of_dvd (by decide) h) (by decide +kernel))
  exact ⟨b2, r1, r2.mpr (careful_counted toyWalletEnv _ toyParams toyState 12 toyOps toyBuilder h0 toyCareful)⟩

/-- Two faults of the builder that cancel out: a withdrawal of 2 ada is announced twice, and a stake key is deregistered. -/
def toyOdd : List Op :=
  [.addInput ⟨List.replicate 32 1, 0, 10000000⟩, .addWithdrawal ⟨0xE1, List.replicate 28 9⟩ 2000000,
    .addWithdrawal ⟨0xE1, List.replicate 28 9⟩ 2000000, .stakeDeregistration ⟨0xE1, List.replicate 28 9⟩,
    .addOutputEnterprise ⟨0x61, List.replicate 28 2⟩ 5000000, .setChangeEnterprise ⟨0x61, List.replicate 28 9⟩, .setTtl 1000]

theorem toyOdd_prepared : PreparedFor (Holds toyWalletEnv toyNetwork toyKeys) toyParams toyState toyOdd where
  inputs u hu := by
    obtain rfl := List.mem_singleton.mp hu
    exact ⟨0x61 :: List.replicate 28 9, List.replicate 28 9, by decide +kernel, by decide +kernel, toyHolds⟩
  someInput := by decide +kernel
  withdrawals w hw := by
    have hw : w ∈ [((0xE1 : UInt8) :: List.replicate 28 9, 2000000), (0xE1 :: List.replicate 28 9, 2000000)] := hw
    simp only [List.mem_cons, List.not_mem_nil, or_false, or_self] at hw
    subst hw
    exact ⟨List.replicate 28 9, by decide +kernel, toyHolds, by decide +kernel⟩
  certificates c hc h hh := by
    obtain rfl := List.mem_singleton.mp hc
    obtain rfl := List.mem_singleton.mp hh
    exact toyHolds
  deposits := by decide +kernel
  outputs o ho := by
    obtain rfl := List.mem_singleton.mp ho
    decide +kernel
  ttl := ⟨1000, rfl, by decide⟩
  change := by decide +kernel
  fees := rfl
  amounts := by decide +kernel
  noComputedFee op h := by
    simp only [toyOdd, List.mem_cons, List.not_mem_nil, or_false] at h
    rcases h with h | h | h | h | h | h | h <;> subst h <;> simp

/-- The hypotheses of `C91_accepted_iff` are met by it, and the condition holds: so this transaction, too, is accepted. -/
example : ∃ b0 b1, run toyWalletEnv 12 {} toyOdd = some b0 ∧ balance 12 b0 1 true = some (b1, .ok ()) ∧
    CountedRight toyParams toyState toyOdd b0.tx.body := by
  have h : (balance 12 ((run toyWalletEnv 12 {} toyOdd).getD {}) 1 true).map (·.2) = some (.ok ()) := by decide +kernel
  obtain ⟨⟨b1, o⟩, h1, h2⟩ := Option.map_eq_some_iff.mp h
  exact ⟨(run toyWalletEnv 12 {} toyOdd).getD {}, b1, rfl, by rw [h1, ← h2], by unfold CountedRight; decide +kernel⟩

end Cardano.TxBuilder
