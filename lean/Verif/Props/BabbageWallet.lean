import Verif.Spec.BabbageRules
import Verif.Props.BabbageBuilder
import Verif.Props.Wallet

/-! # C93: a balanced Babbage transaction is accepted -/

namespace Cardano.BabbageBuilder

open Cardano Cardano.Ledger Cardano.Cbor Cardano.Spec.BabbageBuilder Cardano.Spec.BabbageRules Cardano.Spec.Wallet
open Cardano.Address (Base)
open Cardano.Spec.LedgerRules (Crypto State paymentKey rewardKey networkOf)
open Cardano.TxBuilder (Env SKey replaceWitness feeFor)
open Cardano.Spec.TxBuilder (WitnessSized minFee)

theorem run_append (E : Env) (k : Nat) (ops ops' : List Op) : ∀ b, run E k b (ops ++ ops') = (run E k b ops).bind fun b' => run E k b' ops' := by
  induction ops with
  | nil => intro b; rfl
  | cons op ops ih =>
    intro b
    rw [List.cons_append, run, run]
    split <;> simp_all

/-- What signing with all keys does. -/
theorem sign_all (E : Env) (k : Nat) (id : Bytes) : ∀ (keys : List SKey) (b : Builder), getID E b = id →
    (∀ key ∈ keys, CanSign E id key) →
    ∃ ws, run E k b (keys.map .sign) = some { b with tx := withWitnesses b.tx ws } ∧
      ws.length ≤ b.tx.wits.vkeys.length + keys.length ∧
      (∀ w ∈ ws, w ∈ b.tx.wits.vkeys ∨ ∃ key ∈ keys, key.pub E = .ok w.vkey ∧ key.sign E id = .ok w.sig) ∧
      (∀ w ∈ b.tx.wits.vkeys, ∃ w' ∈ ws, w'.vkey = w.vkey) ∧
      ∀ key ∈ keys, ∃ w ∈ ws, key.pub E = .ok w.vkey := by
  intro keys
  induction keys with
  | nil =>
    intro b hid _
    exact ⟨b.tx.wits.vkeys, rfl, by simp, fun w hw => Or.inl hw, fun w hw => ⟨w, hw, rfl⟩, by simp⟩
  | cons key keys ih =>
    intro b hid hk
    obtain ⟨pub, sig, h1, h2, -, -⟩ := TxBuilder.canSign_ok E id key (hk key (by simp))
    have hs : sign E b key = ({ b with tx := withWitnesses b.tx (replaceWitness b.tx.wits.vkeys pub sig) }, .ok ()) := by
      unfold sign witnessFor makeWitness
      rw [hid, h2, Out.ok_bind, h1]
      rfl
    obtain ⟨ws, g1, g2, g3, g4, g5⟩ := ih { b with tx := withWitnesses b.tx (replaceWitness b.tx.wits.vkeys pub sig) }
      (by rw [← hid]; rfl) (fun key' h => hk key' (by simp [h]))
    have hlen : (replaceWitness b.tx.wits.vkeys pub sig).length ≤ b.tx.wits.vkeys.length + 1 := by
      unfold replaceWitness
      rw [List.length_append]
      have := List.length_filter_le (fun w : VkeyWitness => !(w.vkey == pub)) b.tx.wits.vkeys
      simp only [List.length_singleton]
      omega
    have hold : ∀ w ∈ b.tx.wits.vkeys, ∃ w' ∈ replaceWitness b.tx.wits.vkeys pub sig, w'.vkey = w.vkey := by
      intro w hw
      by_cases he : w.vkey = pub
      · exact ⟨⟨pub, sig⟩, by simp [replaceWitness], he.symm⟩
      · exact ⟨w, by simp [replaceWitness, hw, he], rfl⟩
    have hmem : ∀ w ∈ replaceWitness b.tx.wits.vkeys pub sig, w ∈ b.tx.wits.vkeys ∨ w = ⟨pub, sig⟩ := by
      intro w hw
      unfold replaceWitness at hw
      rcases List.mem_append.mp hw with hw | hw
      · exact Or.inl (List.mem_filter.mp hw).1
      · exact Or.inr (List.mem_singleton.mp hw)
    refine ⟨ws, ?_, ?_, ?_, ?_, ?_⟩
    · rw [List.map_cons, run]
      simp only [step, hs]
      rw [g1]; rfl
    · change ws.length ≤ (replaceWitness b.tx.wits.vkeys pub sig).length + keys.length at g2
      simp only [List.length_cons]; omega
    · intro w hw
      rcases g3 w hw with g | ⟨key', hk', e⟩
      · rcases hmem w g with g | rfl
        · exact Or.inl g
        · exact Or.inr ⟨key, by simp, h1, h2⟩
      · exact Or.inr ⟨key', by simp [hk'], e⟩
    · intro w hw
      obtain ⟨w', hw', e⟩ := hold w hw
      obtain ⟨w'', hw'', e'⟩ := g4 w' hw'
      exact ⟨w'', hw'', e'.trans e⟩
    · intro key' hk'
      rcases List.mem_cons.mp hk' with rfl | hk'
      · obtain ⟨w'', hw'', e'⟩ := g4 ⟨pub, sig⟩ (by simp [withWitnesses, replaceWitness])
        exact ⟨w'', hw'', by rw [h1, e']⟩
      · exact g5 key' hk'

/-- The size of an output grows with its amount. -/
theorem outputSize_mono (addr : Bytes) (m n : Nat) (h : m ≤ n) (pre : Bool) :
    outputSize (output addr m pre) ≤ outputSize (output addr n pre) := by
  have hu : (enc (.uint m)).length ≤ (enc (.uint n)).length := by
    simp only [enc, TxBuilder.encHeader_length]
    exact TxBuilder.uintSize_mono h
  unfold outputSize output
  cases pre <;>
    simp only [Bool.false_eq_true, if_false, if_true, Babbage.TxOut.ser, Babbage.PreOut.ser, Babbage.PostOut.ser, Babbage.datumItem,
      List.append_nil] <;> (rw [enc, enc]; simp only [encList, List.length_append, List.length_cons, List.length_nil]; omega)

theorem baseSize_mono (t : Babbage.Tx) (os : List Babbage.TxOut) (o o' : Babbage.TxOut) (h : outputSize o ≤ outputSize o') :
    baseSize { t with body := { t.body with outputs := os ++ [o] } } ≤ baseSize { t with body := { t.body with outputs := os ++ [o'] } } := by
  unfold outputSize at h
  have : (enc (.array ((os ++ [o]).map Babbage.TxOut.ser))).length ≤ (enc (.array ((os ++ [o']).map Babbage.TxOut.ser))).length := by
    rw [enc, enc]
    simp only [List.map_append, List.map_cons, List.map_nil, TxBuilder.encList_append, encList, List.length_append, List.length_cons, List.length_nil,
      List.length_map]
    omega
  unfold baseSize itemsA itemsB
  simp only [encList, List.length_append, List.length_cons, List.length_nil] at this ⊢
  omega

/-- The change is added to what the history built. -/
theorem run_change (E : Env) (k : Nat) (ops : List Op) (b0 : Builder) (h0 : run E k {} ops = some b0) (chg : Base) (m : Nat) (pre : Bool)
    (rest : List Op) :
    run E k {} (ops ++ .addOutputBase chg m pre :: rest) = run E k (addOutput b0 chg.toBytes m pre) rest := by
  rw [run_append, h0]
  rfl

theorem memAppend_args {ops : List Op} (h : ∀ op ∈ ops, ArgsWF op) {ops' : List Op} (h' : ∀ op ∈ ops', ArgsWF op) :
    ∀ op ∈ ops ++ ops', ArgsWF op := by
  intro op ho
  rcases List.mem_append.mp ho with ho | ho
  · exact h op ho
  · exact h' op ho

theorem outputsOf_append (ops ops' : List Op) : outputsOf (ops ++ ops') = outputsOf ops ++ outputsOf ops' := by
  induction ops with
  | nil => rfl
  | cons op ops ih => cases op <;> simp only [List.cons_append, outputsOf, ih]

theorem inputsOf_append (ops ops' : List Op) : inputsOf (ops ++ ops') = inputsOf ops ++ inputsOf ops' := by
  induction ops with
  | nil => rfl
  | cons op ops ih =>
    cases op <;> simp only [List.cons_append, inputsOf, ih]
    split <;> simp

theorem withdrawalsOf_append (ops ops' : List Op) : withdrawalsOf (ops ++ ops') = withdrawalsOf ops ++ withdrawalsOf ops' := by
  induction ops with
  | nil => rfl
  | cons op ops ih => cases op <;> simp only [List.cons_append, withdrawalsOf, ih]

/-- **C93** The two-pass recipe with which a wallet can balance a Babbage transaction although `balance` is not
implemented: prepare the transaction with all of the remaining value as change and ask `calculateFee` for `n`
witnesses; then prepare it again with the change reduced by that fee, set the fee and sign with at most `n` keys.  If
the change is large enough, the network accepts the transaction. -/
theorem C93_two_pass (E : Env) (N : Crypto) (hN : SameCrypto E N) (pp : Params) (st : State) (k : Nat) (hk : 12 ≤ k)
    (ops : List Op) (keys : List SKey) (b0 : Builder) (h0 : run E k {} ops = some b0) (hc : Careful E N pp st keys ops)
    (chg : Base) (hchg : chg.pmt.length = 28 ∧ chg.stk.length = 28) (hnet : networkOf chg.toBytes = some st.network) (pre : Bool)
    (m : Nat) (hm : m < 2 ^ 64) (hleft : Left st ops m) (n : Nat) (hn : keys.length ≤ n) (hn' : keys.length < 2 ^ 58)
    (hmax : ∀ b1, run E k {} (ops ++ [.addOutputBase chg m pre]) = some b1 → ∀ ws : List VkeyWitness, ws.length = n →
      (∀ w ∈ ws, WitnessSized w) → size (withWitnesses b1.tx ws) + 8 ≤ pp.maxTxSize + 1)
    (hfit : minFee pp.minFeeA pp.minFeeB (pp.maxTxSize + 1) < 2 ^ 64) :
    ∃ b1 b1' f, run E k {} (ops ++ [.addOutputBase chg m pre]) = some b1 ∧ calculateFee k b1 n = some (b1', f) ∧
      (minAmount pp (payment chg.toBytes m pre) + f ≤ m →
        ∃ b2, run E k {} (ops ++ [.addOutputBase chg (m - f) pre, .setFee f]) = some b2 ∧
          ((∀ key ∈ keys, CanSign E (getID E b2) key) →
            ∃ b3, run E k {} (ops ++ [.addOutputBase chg (m - f) pre, .setFee f] ++ keys.map .sign) = some b3 ∧
              b3.tx.body.outputs = outputsOf ops ++ [payment chg.toBytes (m - f) pre] ∧ Accepts N pp st b3.tx)) := by
  have hpay : ∀ a x p, output a x p = payment a x p := by intro a x p; cases p <;> rfl
  obtain ⟨q1, q2⟩ := C77_coefficients E k ops {} b0 h0
  have cA : b0.minFeeA = pp.minFeeA := q1.trans hc.feeA
  have cB : b0.minFeeB = pp.minFeeB := q2.trans hc.feeB
  have r1 := run_change E k ops b0 h0 chg m pre []
  refine ⟨addOutput b0 chg.toBytes m pre, ?_⟩
  have r1 : run E k {} (ops ++ [.addOutputBase chg m pre]) = some (addOutput b0 chg.toBytes m pre) := r1
  have hmax := hmax _ r1
  generalize hds : (List.replicate n (⟨List.replicate 32 0, List.replicate 64 0⟩ : VkeyWitness)) = ds at *
  have hdl : ds.length = n := by rw [← hds]; simp
  have hdw : ∀ w ∈ ds, WitnessSized w := by
    intro w hw
    rw [← hds] at hw
    rw [List.eq_of_mem_replicate hw]; simp [WitnessSized]
  have hfit' : ∀ ds : List VkeyWitness, ds.length = n → (∀ d ∈ ds, WitnessSized d) →
      minFee (addOutput b0 chg.toBytes m pre).minFeeA (addOutput b0 chg.toBytes m pre).minFeeB
        (size (withWitnesses (addOutput b0 chg.toBytes m pre).tx ds) + 8) < 2 ^ 64 := by
    intro ds h1 h2
    refine Nat.lt_of_le_of_lt ?_ hfit
    change minFee b0.minFeeA b0.minFeeB _ ≤ _
    rw [cA, cB]
    unfold minFee
    exact Nat.add_le_add_right (Nat.mul_le_mul_left _ (hmax ds h1 h2)) _
  obtain ⟨b1', f, hcf, hf, hb1', -⟩ := C77_calculateFee (addOutput b0 chg.toBytes m pre) n k ds hdl hdw (hfit' ds hdl hdw) hk
  refine ⟨b1', f, r1, hcf, fun henough => ?_⟩
  have r2 := run_change E k ops b0 h0 chg (m - f) pre [.setFee f]
  refine ⟨_, r2.trans rfl, fun hsign => ?_⟩
  generalize hb2 : setFee (addOutput b0 chg.toBytes (m - f) pre) f = b2 at *
  obtain ⟨ws, s1, s2, s3, -, s5⟩ := sign_all E k _ keys b2 rfl hsign
  have hv0 : b2.tx.wits.vkeys = [] := by rw [← hb2]; rfl
  rw [hv0] at s2 s3
  have r3 : run E k {} (ops ++ [.addOutputBase chg (m - f) pre, .setFee f] ++ keys.map .sign) =
      some { b2 with tx := withWitnesses b2.tx ws } := by
    rw [run_append, r2]
    change (some (setFee (addOutput b0 chg.toBytes (m - f) pre) f)).bind _ = _
    rw [hb2]; exact s1
  have hsized : ∀ w ∈ ws, WitnessSized w := by
    intro w hw
    rcases s3 w hw with h | ⟨key, hk, h1, h2⟩
    · cases h
    · obtain ⟨pub, sig, e1, e2, e3, e4⟩ := TxBuilder.canSign_ok E _ key (hsign key hk)
      rw [e1] at h1; rw [e2] at h2
      exact ⟨by rw [← Out.ok.inj h1]; exact e3, by rw [← Out.ok.inj h2]; exact e4⟩
  -- the body
  obtain ⟨⟨d1, d2⟩, d3, ⟨d4, d5⟩, d6, -, d8, d9⟩ := C78_body E k ops b0 h0
  have ei : b2.tx.body.inputs = b0.tx.body.inputs := by rw [← hb2]; rfl
  have ew : b2.tx.body.withdrawals = b0.tx.body.withdrawals := by rw [← hb2]; rfl
  have eo : b2.tx.body.outputs = outputsOf ops ++ [payment chg.toBytes (m - f) pre] := by
    rw [← hb2, ← d3, ← hpay]; rfl
  have et : b2.tx.body.ttl = ttlOf ops := by rw [← d6, ← hb2]; rfl
  have ef : b2.tx.body.fee = f := by rw [← hb2]; rfl
  have p1 : b0.tx.body.inputs.Perm (inputsOf ops) :=
    (List.perm_ext_iff_of_nodup (sorted_nodup txInLt_order _ d1) hc.inputsOnce).mpr d2
  have p2 : b0.tx.body.withdrawals.Perm (withdrawalsOf ops) := by
    refine (List.perm_ext_iff_of_nodup (TxBuilder.nodup_of_map _ (sorted_nodup bytesLt_order _ d4))
      (TxBuilder.nodup_of_map _ hc.withdrawalsOnce)).mpr fun x => ?_
    obtain ⟨a, v⟩ := x
    rw [d5]
    exact ⟨fun h => TxBuilder.lastFor_mem _ _ _ h, fun h => TxBuilder.lastFor_of_mem a v _ hc.withdrawalsOnce h⟩
  have hfm : f ≤ m := by omega
  have hout : minAmount pp (payment chg.toBytes (m - f) pre) ≤ minAmount pp (payment chg.toBytes m pre) := by
    unfold minAmount
    have := outputSize_mono chg.toBytes (m - f) m (by omega) pre
    rw [hpay, hpay] at this
    exact Nat.mul_le_mul_left _ (by omega)
  have hamt : ∀ a x p, amountOf (payment a x p) = x := by intro a x p; cases p <;> rfl
  have hadr : ∀ a x p, addressOf (payment a x p) = a := by intro a x p; cases p <;> rfl
  -- sizes
  have hsz : size (withWitnesses b2.tx ws) ≤ size (withFee (withWitnesses (addOutput b0 chg.toBytes m pre).tx ds) f) := by
    rw [size_eq, size_withFee, show (withWitnesses b2.tx ws).body.fee = f from ef, size_wits _ _ hsized, size_wits _ _ hdw, hdl]
    refine Nat.le_trans (size_fewer b2.tx ws.length n (by simp only [List.length_nil] at s2; omega) f) ?_
    rw [sizeWithFee_eq, sizeWithFee_eq]
    have hb := baseSize_mono (dummyTx { b0.tx with body := { b0.tx.body with fee := f } } n) b0.tx.body.outputs
      (output chg.toBytes (m - f) pre) (output chg.toBytes m pre) (outputSize_mono _ _ _ (by omega) _)
    have e1 : baseSize (dummyTx b2.tx n) = baseSize { dummyTx { b0.tx with body := { b0.tx.body with fee := f } } n with
        body := { (dummyTx { b0.tx with body := { b0.tx.body with fee := f } } n).body with
          outputs := b0.tx.body.outputs ++ [output chg.toBytes (m - f) pre] } } := by rw [← hb2]; rfl
    have e2 : baseSize (dummyTx (addOutput b0 chg.toBytes m pre).tx n) = baseSize { dummyTx { b0.tx with body := { b0.tx.body with fee := f } } n with
        body := { (dummyTx { b0.tx with body := { b0.tx.body with fee := f } } n).body with
          outputs := b0.tx.body.outputs ++ [output chg.toBytes m pre] } } := rfl
    rw [e1, e2]
    exact Nat.add_le_add_right hb _
  refine ⟨_, r3, eo, ?_⟩
  refine ⟨?_, ?_, ?_, ?_, ?_, ?_, ?_, ?_, ?_, ?_, ?_, ?_⟩
  · have hf64 : f < 2 ^ 64 := by omega
    refine C78_cddl E k _ _ r3 (memAppend_args (memAppend_args hc.args ?_) ?_) ?_
    · intro op ho
      simp only [List.mem_cons, List.not_mem_nil, or_false] at ho
      rcases ho with rfl | rfl
      · exact ⟨hchg.1, hchg.2, by omega⟩
      · exact hf64
    · intro op ho
      obtain ⟨key, hk, rfl⟩ := List.mem_map.mp ho
      have := hsign key hk
      cases key with
      | ed seed => exact this.1
      | bip x => exact this.1
    · simp only [List.length_append, List.length_cons, List.length_nil, List.length_map]
      have := hc.short
      omega
  · change b2.tx.flag = true
    rw [← hb2]; exact d9
  · intro x hx
    exact hc.ttl x (by rw [← et]; exact hx)
  · change b2.tx.body.inputs ≠ []
    rw [ei]
    intro h
    rw [h] at p1
    exact hc.someInput (List.perm_nil.mp p1.symm)
  · intro i hi
    have hi' : i ∈ inputsOf ops := (d2 i).mp (by rw [← ei]; exact hi)
    obtain ⟨addr, v, h, e1, e2, -⟩ := hc.inputs i hi'
    exact ⟨addr, v, e1, by rw [e2]; rfl⟩
  · intro w hw
    have hw' : w ∈ withdrawalsOf ops := p2.mem_iff.mp (by rw [← ew]; exact hw)
    obtain ⟨h, e1, -, -⟩ := hc.withdrawals w hw'
    rw [e1]; rfl
  · change (b2.tx.body.inputs.map st.value).sum + (b2.tx.body.withdrawals.map (·.2)).sum = outputSum b2.tx.body.outputs + b2.tx.body.fee
    rw [ei, ew, eo, ef, TxBuilder.sum_perm (p1.map st.value), TxBuilder.sum_perm (p2.map (·.2)), hleft]
    unfold Spec.BabbageRules.outputSum
    simp only [List.map_append, List.map_cons, List.map_nil, List.sum_append, List.sum_cons, List.sum_nil, hamt]
    omega
  · intro o ho
    have ho : o ∈ b2.tx.body.outputs := ho
    rw [eo] at ho
    rcases List.mem_append.mp ho with ho | ho
    · exact (hc.outputs o ho).1
    · rw [List.mem_singleton.mp ho, hamt]; omega
  · refine ⟨fun o ho => ?_, fun w hw => ?_⟩
    · have ho : o ∈ b2.tx.body.outputs := ho
      rw [eo] at ho
      rcases List.mem_append.mp ho with ho | ho
      · exact (hc.outputs o ho).2
      · rw [List.mem_singleton.mp ho, hadr]; exact hnet
    · have hw' : w ∈ withdrawalsOf ops := p2.mem_iff.mp (by rw [← ew]; exact hw)
      obtain ⟨h, -, -, e⟩ := hc.withdrawals w hw'
      exact e
  · change minFee pp.minFeeA pp.minFeeB (size (withWitnesses b2.tx ws) - 1) ≤ b2.tx.body.fee
    rw [ef]
    rw [show (addOutput b0 chg.toBytes m pre).minFeeA = pp.minFeeA from cA,
      show (addOutput b0 chg.toBytes m pre).minFeeB = pp.minFeeB from cB] at hf
    conv => rhs; rw [hf]
    unfold minFee
    exact Nat.add_le_add_right (Nat.mul_le_mul_left _ (by omega)) _
  · change size (withWitnesses b2.tx ws) - 1 ≤ pp.maxTxSize
    have h1 := hmax ds hdl hdw
    have h2 : size (withFee (withWitnesses (addOutput b0 chg.toBytes m pre).tx ds) f) ≤
        size (withWitnesses (addOutput b0 chg.toBytes m pre).tx ds) + 8 := by
      rw [size_withFee, size_eq, sizeWithFee_eq, sizeWithFee_eq]
      have := TxBuilder.uintSize_le f
      have := TxBuilder.uintSize_pos (withWitnesses (addOutput b0 chg.toBytes m pre).tx ds).body.fee
      omega
    omega
  · have hverify : ∀ w ∈ ws, N.verify w.vkey (N.bodyHash b2.tx.body.serialize) w.sig = true := by
      intro w hw
      rcases s3 w hw with h | ⟨key, hk, h1, h2⟩
      · cases h
      · rw [hN.hash]
        have hcan := hsign key hk
        change N.verify w.vkey (getID E b2) w.sig = true
        cases key with
        | ed seed =>
          rw [← hN.ed25519, ← Out.ok.inj h1, ← Out.ok.inj h2]
          exact E.S.verify_sign seed _ hcan.1 hcan.2
        | bip x =>
          obtain ⟨p, hp, -, hv⟩ := Bip32.C33_sign_verifies E.C E.P x _ w.sig h2
          simp only [TxBuilder.SKey.pub, hp, Out.ok_bind, Out.ok.injEq] at h1
          rw [← hN.extended, ← h1]; exact hv
    have hholds : ∀ h, Holds E N keys h → ∃ w ∈ ws, N.keyHash w.vkey = h := by
      rintro h ⟨key, hk, pub, e1, e2⟩
      obtain ⟨w, hw, e3⟩ := s5 key hk
      exact ⟨w, hw, by rw [← e2, Out.ok.inj (e3.symm.trans e1)]⟩
    refine ⟨hverify, fun h hh => hholds h ?_⟩
    have hh : h ∈ keysNeeded st b2.tx.body := hh
    unfold keysNeeded at hh
    rw [ei, ew] at hh
    rcases List.mem_append.mp hh with hh | hh
    · obtain ⟨i, hi, e⟩ := List.mem_filterMap.mp hh
      obtain ⟨addr, v, h', e1, e2, e3⟩ := hc.inputs i ((d2 i).mp hi)
      rw [e1] at e
      simp only [Option.bind_some, e2, Option.some.injEq] at e
      rw [← e]; exact e3
    · obtain ⟨w, hw, e⟩ := List.mem_filterMap.mp hh
      obtain ⟨h', e1, e2, -⟩ := hc.withdrawals w (p2.mem_iff.mp hw)
      rw [e1, Option.some.injEq] at e
      rw [← e]; exact e2

/-! ## A concrete wallet -/

/-- The parameters of mainnet in Babbage. -/
def toyParams : Params := ⟨44, 155381, 4310, 16384⟩

def toyOps : List Op :=
  [.addInput (List.replicate 32 1) 0, .addWithdrawal ⟨0xE1, List.replicate 28 9⟩ 500000,
    .addOutputEnterprise ⟨0x61, List.replicate 28 2⟩ 5000000 false, .setTtl 1000]

theorem toyCareful : Careful TxBuilder.toyWalletEnv TxBuilder.toyNetwork toyParams TxBuilder.toyState TxBuilder.toyKeys toyOps where
  args op h := by
    simp only [toyOps, List.mem_cons, List.not_mem_nil, or_false] at h
    rcases h with rfl | rfl | rfl | rfl <;> simp [ArgsWF]
  inputs i hi := by
    obtain rfl := List.mem_singleton.mp hi
    exact ⟨0x61 :: List.replicate 28 9, 10000000, List.replicate 28 9, by decide +kernel, by decide +kernel, TxBuilder.toyHolds⟩
  inputsOnce := by decide +kernel
  someInput := by decide +kernel
  withdrawals w hw := by
    obtain rfl := List.mem_singleton.mp hw
    exact ⟨List.replicate 28 9, by decide +kernel, TxBuilder.toyHolds, by decide +kernel⟩
  withdrawalsOnce := by decide +kernel
  outputs o ho := by
    obtain rfl := List.mem_singleton.mp ho
    decide +kernel
  ttl t h := by
    have : some 1000 = some t := h
    injection this with h
    subst h; decide
  feeA := rfl
  feeB := rfl
  short := by decide

def toyChange : Base := ⟨0x01, List.replicate 28 9, List.replicate 28 9⟩

/-- The hypotheses of `C93_two_pass` are met, the fee is that of a real transaction of this shape and the change is
large enough. -/
theorem toyBabbageAccepted : ∃ b3, run TxBuilder.toyWalletEnv 12 {} (toyOps ++ [.addOutputBase toyChange (5500000 - 168669) false, .setFee 168669] ++
      TxBuilder.toyKeys.map .sign) = some b3 ∧ Accepts TxBuilder.toyNetwork toyParams TxBuilder.toyState b3.tx := by
  obtain ⟨b1, b1', f, h1, h2, h3⟩ := C93_two_pass TxBuilder.toyWalletEnv TxBuilder.toyNetwork (TxBuilder.sameCrypto_sodium _ _ _ _ _) toyParams
    TxBuilder.toyState 12 (by decide) toyOps TxBuilder.toyKeys ((run TxBuilder.toyWalletEnv 12 {} toyOps).getD {}) rfl toyCareful toyChange
    (by decide) (by decide +kernel) false 5500000 (by decide) (by unfold Left; decide +kernel) 1 (by decide) (by decide)
    (by
      intro b1 hb1 ws hl hws
      rw [size_eq, size_wits _ _ hws, hl]
      have : b1 = ((run TxBuilder.toyWalletEnv 12 {} (toyOps ++ [.addOutputBase toyChange 5500000 false])).getD {}) := by rw [hb1]; rfl
      subst this
      change sizeWithFee _ 0 + 8 ≤ _
      decide +kernel)
    (by decide)
  have hb1 : b1 = ((run TxBuilder.toyWalletEnv 12 {} (toyOps ++ [.addOutputBase toyChange 5500000 false])).getD {}) := by rw [h1]; rfl
  have hf : f = 168669 := by
    have : (calculateFee 12 b1 1).map (·.2) = some f := by rw [h2]; rfl
    have h' : (calculateFee 12 b1 1).map (·.2) = some 168669 := by rw [hb1]; decide +kernel
    rw [this] at h'
    injection h'
  subst hf
  obtain ⟨b2, h4, h5⟩ := h3 (by decide +kernel)
  obtain ⟨b3, h6, -, h7⟩ := h5 (by
    intro key hk
    obtain rfl := List.mem_singleton.mp hk
    refine ⟨by decide, ?_⟩
    intro h
    have h : Ed.ellL ∣ leNat (1 :: List.replicate 63 0) := h
    rw [show leNat (1 :: List.replicate 63 0) = 1 by decide +kernel] at h
    exact absurd (Nat.le_of_dvd (by decide) h) (by decide +kernel))
  exact ⟨b3, h6, h7⟩

end Cardano.BabbageBuilder
