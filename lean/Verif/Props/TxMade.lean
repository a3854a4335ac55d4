import Verif.Props.TxTotals
import Verif.Props.TxBalance
import Verif.Props.Wallet
import Verif.Props.LedgerStable
import Verif.Props.LedgerWritten
import Verif.Props.CborRfc
import Verif.Spec.Wire

/-! # What a builder holds can be written (C101) -/

namespace Cardano.TxBuilder

open Cardano Cardano.Ledger Cardano.Address Cardano.Spec.TxBuilder Cardano.Spec.Ledger Cardano.Spec.Wire

/-- Everything in the builder has its C++ size, and no list is longer than `n`. -/
structure Made (n : Nat) (b : Builder) : Prop where
  inputs : b.tx.body.inputs.length ≤ n ∧ StrictSorted TxIn.lt b.tx.body.inputs ∧ ∀ i ∈ b.tx.body.inputs, InRep i
  outputs : b.tx.body.outputs.length ≤ n ∧ ∀ o ∈ b.tx.body.outputs, OutRep o
  fee : U64 b.tx.body.fee
  ttl : U64 b.tx.body.ttl
  certs : b.tx.body.certificates.length ≤ n ∧ ∀ c ∈ b.tx.body.certificates, CertRep c
  withdrawals : b.tx.body.withdrawals.length ≤ n ∧ StrictSorted bytesLt (b.tx.body.withdrawals.map (·.1)) ∧
    ∀ w ∈ b.tx.body.withdrawals, Fits w.1 ∧ U64 w.2
  hash : ∀ h ∈ b.tx.body.metadataHash, h.length = 32
  vkeys : b.tx.wits.vkeys.length ≤ n ∧ ∀ v ∈ b.tx.wits.vkeys, VkeyRep v
  multisig : b.tx.wits.multisig.length ≤ n ∧ ∀ s ∈ b.tx.wits.multisig, ScriptRep s
  change : Fits b.changeAddr

theorem Made.mono {n m : Nat} {b : Builder} (h : Made n b) (hnm : n ≤ m) : Made m b where
  inputs := ⟨Nat.le_trans h.inputs.1 hnm, h.inputs.2⟩
  outputs := ⟨Nat.le_trans h.outputs.1 hnm, h.outputs.2⟩
  fee := h.fee
  ttl := h.ttl
  certs := ⟨Nat.le_trans h.certs.1 hnm, h.certs.2⟩
  withdrawals := ⟨Nat.le_trans h.withdrawals.1 hnm, h.withdrawals.2⟩
  hash := h.hash
  vkeys := ⟨Nat.le_trans h.vkeys.1 hnm, h.vkeys.2⟩
  multisig := ⟨Nat.le_trans h.multisig.1 hnm, h.multisig.2⟩
  change := h.change

theorem u64_lt (x : Int) : u64 x < 2 ^ 64 := by unfold u64; omega

theorem setInsert_length (x : TxIn) (l : List TxIn) : (setInsert TxIn.lt x l).length ≤ l.length + 1 := by
  induction l with
  | nil => simp [setInsert]
  | cons y ys ih => simp only [setInsert]; (repeat' split) <;> simp <;> omega

theorem mapAssign_length (x : Bytes) (n : Nat) (l : List (Bytes × Nat)) : (mapAssign bytesLt x n l).length ≤ l.length + 1 := by
  induction l with
  | nil => simp [mapAssign]
  | cons y ys ih => simp only [mapAssign]; (repeat' split) <;> simp <;> omega

theorem made_fee {n : Nat} {b : Builder} (h : Made n b) (f : Nat) (hf : f < 2 ^ 64) : Made n (setFee b f) where
  inputs := h.inputs
  outputs := h.outputs
  fee := hf
  ttl := h.ttl
  certs := h.certs
  withdrawals := h.withdrawals
  hash := h.hash
  vkeys := ⟨Nat.zero_le _, fun v hv => by cases hv⟩
  multisig := h.multisig
  change := h.change

theorem made_outputs {n : Nat} {b : Builder} (h : Made n b) (outs : List TxOut) (h1 : outs.length ≤ n) (h2 : ∀ o ∈ outs, OutRep o) :
    Made n (setOutputs b outs) where
  inputs := h.inputs
  outputs := ⟨h1, h2⟩
  fee := h.fee
  ttl := h.ttl
  certs := h.certs
  withdrawals := h.withdrawals
  hash := h.hash
  vkeys := h.vkeys
  multisig := h.multisig
  change := h.change

theorem made_cert {n : Nat} {b : Builder} (h : Made n b) (c : Certificate) (d : Nat) (hc : CertRep c) : Made (n + 1) (addCert b c d) where
  inputs := ⟨Nat.le_succ_of_le h.inputs.1, h.inputs.2⟩
  outputs := ⟨Nat.le_succ_of_le h.outputs.1, h.outputs.2⟩
  fee := h.fee
  ttl := h.ttl
  certs := by
    refine ⟨by have := h.certs.1; simp [addCert, setBody]; omega, fun c' hc' => ?_⟩
    rcases List.mem_append.mp (show c' ∈ b.tx.body.certificates ++ [c] from hc') with hc' | hc'
    · exact h.certs.2 c' hc'
    · rw [List.mem_singleton] at hc'; rw [hc']; exact hc
  withdrawals := ⟨Nat.le_succ_of_le h.withdrawals.1, h.withdrawals.2⟩
  hash := h.hash
  vkeys := ⟨Nat.le_succ_of_le h.vkeys.1, h.vkeys.2⟩
  multisig := ⟨Nat.le_succ_of_le h.multisig.1, h.multisig.2⟩
  change := h.change

theorem made_output {n : Nat} {b : Builder} (h : Made n b) (a : Bytes) (m : Nat) (ha : Fits a) (hm : m < 2 ^ 64) :
    Made (n + 1) (addOutput b a m) where
  inputs := ⟨Nat.le_succ_of_le h.inputs.1, h.inputs.2⟩
  outputs := by
    refine ⟨by have := h.outputs.1; simp [addOutput, setBody, clearWitnessSet]; omega, fun o ho => ?_⟩
    rcases List.mem_append.mp (show o ∈ b.tx.body.outputs ++ [⟨a, m⟩] from ho) with ho | ho
    · exact h.outputs.2 o ho
    · rw [List.mem_singleton] at ho; rw [ho]; exact ⟨ha, hm⟩
  fee := h.fee
  ttl := h.ttl
  certs := ⟨Nat.le_succ_of_le h.certs.1, h.certs.2⟩
  withdrawals := ⟨Nat.le_succ_of_le h.withdrawals.1, h.withdrawals.2⟩
  hash := h.hash
  vkeys := ⟨Nat.zero_le _, fun v hv => by cases hv⟩
  multisig := ⟨Nat.le_succ_of_le h.multisig.1, h.multisig.2⟩
  change := h.change

theorem feeLoop_lt (t : Tx) (a b : Nat) : ∀ k fee cf f, cf < 2 ^ 64 → feeLoop t a b k fee cf = some (.ok f) → f < 2 ^ 64 := by
  intro k
  induction k with
  | zero => intro fee cf f _ h; simp [feeLoop] at h
  | succ k ih =>
    intro fee cf f hcf h
    rw [feeLoop] at h
    split at h
    · simp only [Option.some.injEq, Out.ok.injEq] at h; omega
    · split at h
      · exact ih _ _ _ (Nat.mod_lt _ (by decide)) h
      · simp at h
      · simp at h

theorem calculateFee_lt (k : Nat) (b : Builder) (n f : Nat) (h : calculateFee k b n = some (.ok f)) : f < 2 ^ 64 := by
  unfold calculateFee at h
  split at h
  · exact feeLoop_lt _ _ _ _ _ _ _ (Nat.mod_lt _ (by decide)) h
  · simp at h
  · simp at h

theorem made_updateLoop {m : Nat} (k n : Nat) : ∀ r b cf b' o, Made m b → cf < 2 ^ 64 → updateLoop k n r b cf = some (b', o) → Made m b' := by
  intro r
  induction r with
  | zero => intro b cf b' o _ _ h; simp [updateLoop] at h
  | succ r ih =>
    intro b cf b' o hm hcf h
    rw [updateLoop] at h
    split at h
    · simp only [Option.some.injEq, Prod.mk.injEq] at h; rw [← h.1]; exact hm
    · split at h
      · cases h
      · rename_i f hf
        exact ih _ _ _ _ (made_fee hm cf hcf) (calculateFee_lt _ _ _ _ hf) h
      · simp only [Option.some.injEq, Prod.mk.injEq] at h; rw [← h.1]; exact made_fee hm cf hcf
      · simp only [Option.some.injEq, Prod.mk.injEq] at h; rw [← h.1]; exact made_fee hm cf hcf

theorem made_updateFee {m : Nat} (k n : Nat) (b b' : Builder) (o : Out Unit) (hm : Made m b) (h : updateFee k b n = some (b', o)) :
    Made m b' := by
  unfold updateFee at h
  dsimp only at h
  have h0 := made_fee hm (u64 b.minFeeB) (u64_lt _)
  split at h
  · cases h
  · rename_i f hf
    exact made_updateLoop k n _ _ _ _ _ h0 (calculateFee_lt _ _ _ _ hf) h
  · simp only [Option.some.injEq, Prod.mk.injEq] at h; rw [← h.1]; exact h0
  · simp only [Option.some.injEq, Prod.mk.injEq] at h; rw [← h.1]; exact h0

/-- A round of `balance`: only the first one adds an output. -/
theorem made_balanceStep {m : Nat} (k n : Nat) (force first : Bool) (b : Builder) (nx : Next) (hm : Made m b)
    (h : balanceStep k n force first b = some nx) : Made (if first then m + 1 else m) nx.builder := by
  have le : m ≤ if first = true then m + 1 else m := by split <;> omega
  generalize hM : (if first = true then m + 1 else m) = M at *
  have same := hm.mono le
  unfold balanceStep at h
  split at h
  · rename_i c hc
    split at h
    · simp only [Option.some.injEq] at h; subst h; exact same
    · split at h
      · simp only [Option.some.injEq] at h; subst h
        unfold onNegative
        split
        · exact same
        · split
          · rename_i l hl
            unfold shrinkLast at hl
            split at hl
            · cases hl
            · rename_i o ho
              obtain ⟨new, h1, h2⟩ := Out.bind_eq_ok.mp hl
              injection h2 with h2
              have hd : ∀ x ∈ b.tx.body.outputs.dropLast, x ∈ b.tx.body.outputs := fun x hx => List.mem_of_mem_dropLast hx
              have hne : b.tx.body.outputs ≠ [] := by intro e; rw [e] at ho; simp at ho
              have hpos := List.length_pos_iff.mpr hne
              have hlen := same.outputs.1
              refine made_outputs same l ?_ ?_
              · rw [← h2]; split <;> simp <;> omega
              · intro x hx
                rw [← h2] at hx
                split at hx
                · exact same.outputs.2 x (hd x hx)
                · rcases List.mem_append.mp hx with hx | hx
                  · exact same.outputs.2 x (hd x hx)
                  · rw [List.mem_singleton] at hx
                    rw [hx]; exact ⟨(same.outputs.2 o (List.mem_of_getLast? ho)).1, u64_lt _⟩
          · exact same
          · exact same
      · unfold onPositive at h
        split at h
        · rename_i hf
          simp only [Option.some.injEq] at h; subst h
          rw [if_pos hf.1] at hM
          refine made_outputs same _ (by have := hm.outputs.1; simp; omega) ?_
          intro x hx
          rcases List.mem_append.mp hx with hx | hx
          · exact same.outputs.2 x hx
          · rw [List.mem_singleton] at hx; rw [hx]; exact ⟨same.change, u64_lt _⟩
        · split at h
          · unfold forceFee at h
            dsimp only at h
            have hb : Made M (setBody b fun t => { t with fee := (t.fee + u64 c) % 2 ^ 64 }) :=
              { same with fee := Nat.mod_lt _ (by decide) }
            split at h
            · cases h
            · split at h <;> simp only [Option.some.injEq] at h <;> subst h <;> exact hb
            · simp only [Option.some.injEq] at h; subst h; exact hb
            · simp only [Option.some.injEq] at h; subst h; exact hb
          · simp only [Option.some.injEq] at h; subst h; exact same
  · simp only [Option.some.injEq] at h; subst h; exact same
  · simp only [Option.some.injEq] at h; subst h; exact same

theorem made_balanceLoop (k n : Nat) (force : Bool) : ∀ r first m b b' o, Made m b →
    balanceLoop k n force r first b = some (b', o) → Made (if first then m + 1 else m) b' := by
  intro r
  induction r with
  | zero =>
    intro first m b b' o hm h
    simp only [balanceLoop, Option.some.injEq, Prod.mk.injEq] at h
    rw [← h.1]; exact hm.mono (by split <;> omega)
  | succ r ih =>
    intro first m b b' o hm h
    rw [balanceLoop] at h
    have le : m ≤ if first = true then m + 1 else m := by split <;> omega
    split at h
    · cases h
    · rename_i b2 e hb2
      simp only [Option.some.injEq, Prod.mk.injEq] at h
      rw [← h.1]; exact (made_updateFee k n b b2 _ hm hb2).mono le
    · rename_i b2 hb2
      simp only [Option.some.injEq, Prod.mk.injEq] at h
      rw [← h.1]; exact (made_updateFee k n b b2 _ hm hb2).mono le
    · rename_i b2 _ hb2
      have h2 := made_updateFee k n b b2 _ hm hb2
      split at h
      · cases h
      · rename_i b3 o3 hst
        simp only [Option.some.injEq, Prod.mk.injEq] at h
        rw [← h.1]; exact made_balanceStep k n force first b2 _ h2 hst
      · rename_i b3 hst
        have h3 := made_balanceStep k n force first b2 _ h2 hst
        exact ih false _ b3 b' o h3 h

theorem key_sized (E : Env) (key : SKey) (msg pub sig : Bytes) (h1 : key.pub E = .ok pub) (h2 : key.sign E msg = .ok sig) :
    pub.length = 32 ∧ sig.length = 64 := by
  cases key with
  | ed seed =>
    injection h1 with h1; injection h2 with h2
    exact ⟨by rw [← h1]; exact E.S.pub_length _, by rw [← h2]; exact E.S.sign_length _ _⟩
  | bip k =>
    obtain ⟨p, hp, hl, -⟩ := Bip32.C33_sign_verifies E.C E.P k _ sig h2
    simp only [SKey.pub, hp, Out.ok_bind, Out.ok.injEq] at h1
    refine ⟨?_, hl⟩
    obtain ⟨-, rfl⟩ := Bip32.publicKey_ok hp
    rw [← h1]; exact E.C.enc_length _

theorem fits_base {a : Base} (h1 : a.pmt.length = 28) (h2 : a.stk.length = 28) : Fits a.toBytes := by
  simp [Fits, Address.Base.toBytes, h1, h2]

theorem fits_single {a : Single} (h1 : a.key.length = 28) : Fits a.toBytes := by
  simp [Fits, Address.Single.toBytes, h1]

theorem made_step (E : Env) (k n : Nat) (b b' : Builder) (op : Op) (o : Out Unit) (ha : ArgsWF op) (hm : Made n b)
    (h : step E k b op = some (b', o)) : Made (n + 1) b' := by
  have same := hm.mono (Nat.le_succ n)
  cases op <;> simp only [step, Option.some.injEq, Prod.mk.injEq] at h
  case addInput u =>
    unfold addInput at h
    split at h
    · simp only [Prod.mk.injEq] at h; rw [← h.1]; exact same
    · rename_i hu
      simp only [Prod.mk.injEq] at h; rw [← h.1]
      exact { same with
        inputs := by
          refine ⟨Nat.le_trans (setInsert_length _ _) (by have := hm.inputs.1; show b.tx.body.inputs.length + 1 ≤ n + 1; omega),
            setInsert_sorted txInLt_order _ _ hm.inputs.2.1, fun i hi => ?_⟩
          rcases (mem_setInsert txInLt_order _ _ i).mp hi with rfl | hi
          · exact ⟨by simp [UTxO.input]; omega, ha⟩
          · exact hm.inputs.2.2 i hi
        vkeys := ⟨Nat.zero_le _, fun v hv => by cases hv⟩ }
  case addOutputBase a m => rw [← h.1]; exact made_output hm _ _ (fits_base ha.1 ha.2.1) ha.2.2
  case addOutputEnterprise a m => rw [← h.1]; exact made_output hm _ _ (fits_single ha.1) ha.2
  case addWithdrawal a m =>
    rw [← h.1]
    exact { same with
      withdrawals := by
        refine ⟨Nat.le_trans (mapAssign_length _ _ _) (by have := hm.withdrawals.1; show b.tx.body.withdrawals.length + 1 ≤ n + 1; omega),
          mapAssign_sorted bytesLt_order _ _ _ hm.withdrawals.2.1, fun w hw => ?_⟩
        rcases (mem_mapAssign bytesLt_order _ _ _ hm.withdrawals.2.1 w).mp hw with rfl | hw
        · exact ⟨fits_single ha.1, ha.2⟩
        · exact hm.withdrawals.2.2 w hw.1
      vkeys := ⟨Nat.zero_le _, fun v hv => by cases hv⟩ }
  case poolRegistration p d => rw [← h.1]; exact made_cert hm _ _ ha
  case poolRetirement p e => rw [← h.1]; exact made_cert hm _ _ ha
  case stakeRegistration a d =>
    rw [← h.1]; exact made_cert hm _ _ (by show (a.key.take 28).length = 28; simp [show a.key.length = 28 from ha])
  case stakeDeregistration a =>
    rw [← h.1]; exact made_cert hm _ _ (by show (a.key.take 28).length = 28; simp [show a.key.length = 28 from ha])
  case stakeDelegation a p =>
    rw [← h.1]; exact made_cert hm _ _ ⟨by show (a.key.take 28).length = 28; simp [ha.1], ha.2⟩
  case setFee f => rw [← h.1]; exact made_fee same f ha
  case updateFee m => exact made_updateFee k m b b' o same h
  case setTtl t => rw [← h.1]; exact { same with ttl := ha, vkeys := ⟨Nat.zero_le _, fun v hv => by cases hv⟩ }
  case setChangeBase a => rw [← h.1]; exact { same with change := fits_base ha.1 ha.2 }
  case setChangeEnterprise a => rw [← h.1]; exact { same with change := fits_single ha }
  case setMinFeeA x => rw [← h.1]; exact { same with }
  case setMinFeeB x => rw [← h.1]; exact { same with }
  case balance m force =>
    unfold balance at h
    exact made_balanceLoop k m force 100 true n b b' o hm h
  case sign key =>
    rcases sign_cases E b key with ⟨pub, sig, hw, hs⟩ | hs
    · rw [hs] at h; simp only [Prod.mk.injEq] at h; rw [← h.1]
      unfold witnessFor at hw
      obtain ⟨s, h1, hw⟩ := Out.bind_eq_ok.mp hw
      obtain ⟨p, h2, hw⟩ := Out.bind_eq_ok.mp hw
      simp only [Out.ok.injEq, Prod.mk.injEq] at hw
      obtain ⟨rfl, rfl⟩ := hw
      obtain ⟨id, -, h1⟩ := Out.bind_eq_ok.mp h1
      have hsz := key_sized E key id _ _ h2 h1
      exact { same with
        vkeys := by
          unfold replaceWitness
          refine ⟨?_, fun v hv => ?_⟩
          · have := List.length_filter_le (fun w : VkeyWitness => !(w.vkey == p)) b.tx.wits.vkeys
            have := hm.vkeys.1
            simp only [List.length_append, List.length_singleton]
            omega
          · rcases List.mem_append.mp hv with hv | hv
            · exact hm.vkeys.2 v (List.mem_filter.mp hv).1
            · rw [List.mem_singleton] at hv; rw [hv]; exact hsz }
    · have : b' = b := by rw [← hs, h]
      rw [this]; exact same
  case clearWitnessSet => rw [← h.1]; exact { same with vkeys := ⟨Nat.zero_le _, fun v hv => by cases hv⟩ }

theorem made_run (E : Env) (k : Nat) (ops : List Op) : ∀ n b b', (∀ op ∈ ops, ArgsWF op) → Made n b → run E k b ops = some b' →
    Made (n + ops.length) b' := by
  induction ops with
  | nil => intro n b b' _ hm h; simp only [run, Option.some.injEq] at h; rw [← h]; exact hm
  | cons op ops ih =>
    intro n b b' ha hm h
    rw [run] at h
    split at h
    · cases h
    · cases h
    · rename_i b1 o _ hst
      have := ih (n + 1) b1 b' (fun x hx => ha x (by simp [hx])) (made_step E k n b b1 op o (ha op (by simp)) hm hst) h
      rw [List.length_cons]
      exact this.mono (by omega)

theorem made_new (n : Nat) : Made n ({} : Builder) where
  inputs := ⟨Nat.zero_le _, List.Pairwise.nil, fun i hi => by cases hi⟩
  outputs := ⟨Nat.zero_le _, fun i hi => by cases hi⟩
  fee := by show (0 : Nat) < 2 ^ 64; decide
  ttl := by show (0 : Nat) < 2 ^ 64; decide
  certs := ⟨Nat.zero_le _, fun i hi => by cases hi⟩
  withdrawals := ⟨Nat.zero_le _, List.Pairwise.nil, fun i hi => by cases hi⟩
  hash := fun h hh => by cases hh
  vkeys := ⟨Nat.zero_le _, fun i hi => by cases hi⟩
  multisig := ⟨Nat.zero_le _, fun i hi => by cases hi⟩
  change := by simp [Fits]

theorem Made.rep {n : Nat} {b : Builder} (h : Made n b) (hn : n < 2 ^ 63) : TxRep b.tx := by
  refine ⟨⟨⟨?_, h.inputs.2⟩, ⟨?_, h.outputs.2⟩, h.fee, h.ttl, ⟨?_, h.certs.2⟩, ⟨?_, h.withdrawals.2⟩, h.hash⟩, ⟨?_, h.vkeys.2⟩, ⟨?_, h.multisig.2⟩⟩
  · have := h.inputs.1; unfold Fits; omega
  · have := h.outputs.1; unfold Fits; omega
  · have := h.certs.1; unfold Fits; omega
  · have := h.withdrawals.1; unfold Fits; omega
  · have := h.vkeys.1; unfold Fits; omega
  · have := h.multisig.1; unfold Fits; omega

end Cardano.TxBuilder
