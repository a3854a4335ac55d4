import Verif.Props.TxMade

/-! # What the network does with the bytes of a transaction (C101) -/

namespace Cardano.TxBuilder

open Cardano Cardano.Cbor Cardano.Ledger Cardano.Address Cardano.Spec.TxBuilder Cardano.Spec.Ledger Cardano.Spec.LedgerRules
  Cardano.Spec.Wallet Cardano.Spec.Wire Cardano.Spec.Rfc8949

/-! ## The rules do not look at relays -/

theorem certKeys_written (c : Certificate) : certKeys (certWritten c) = certKeys c := by cases c <;> rfl

theorem deregistrations_written (cs : List Certificate) : deregistrations (cs.map certWritten) = deregistrations cs := by
  unfold deregistrations
  induction cs with
  | nil => rfl
  | cons c cs ih => rw [List.map_cons, List.countP_cons, List.countP_cons, ih]; cases c <;> rfl

theorem newPools_written (cs : List Certificate) : ∀ pools, newPools pools (cs.map certWritten) = newPools pools cs := by
  induction cs with
  | nil => intro _; rfl
  | cons c cs ih =>
    intro pools
    cases c <;> simp only [List.map_cons, certWritten, newPools, ih]

theorem totalDeposits_written (pp : Params) (st : State) (cs : List Certificate) :
    totalDeposits pp st (cs.map certWritten) = totalDeposits pp st cs := by
  unfold totalDeposits
  rw [newPools_written]
  congr 2
  induction cs with
  | nil => rfl
  | cons c cs ih => rw [List.map_cons, List.countP_cons, List.countP_cons, ih]; cases c <;> rfl

theorem keysNeeded_written (st : State) (t : Tx) : keysNeeded st (txWritten t).body = keysNeeded st t.body := by
  unfold keysNeeded txWritten
  dsimp only
  rw [List.flatMap_map]
  simp only [certKeys_written]

theorem rules_written (N : Crypto) (pp : Params) (st : State) (t : Tx) (s : Nat) (body : Bytes) :
    Rules N pp st (txWritten t) s body ↔ Rules N pp st t s body := by
  have hc : consumed st.value pp.keyDeposit (txWritten t).body = consumed st.value pp.keyDeposit t.body := by
    unfold consumed txWritten; dsimp only; rw [deregistrations_written]
  have hp : produced (totalDeposits pp st (txWritten t).body.certificates) (txWritten t).body =
      produced (totalDeposits pp st t.body.certificates) t.body := by
    unfold produced txWritten; dsimp only; rw [totalDeposits_written]
  have hk := keysNeeded_written st t
  constructor
  · intro h
    exact ⟨h.notExpired, h.someInput, h.inputsExist, h.rewardAccounts, by rw [← hc, ← hp]; exact h.valuePreserved, h.outputsLarge,
      h.network, h.feePaid, h.notTooBig, h.witnesses.1, by rw [← hk]; exact h.witnesses.2⟩
  · intro h
    exact ⟨h.notExpired, h.someInput, h.inputsExist, h.rewardAccounts, by rw [hc, hp]; exact h.valuePreserved, h.outputsLarge,
      h.network, h.feePaid, h.notTooBig, h.witnesses.1, by rw [hk]; exact h.witnesses.2⟩

theorem rules_accepts (N : Crypto) (pp : Params) (st : State) (t : Tx) (bytes body : Bytes) (h1 : t.serialize = .ok bytes)
    (h2 : t.body.serialize = .ok body) : Rules N pp st t bytes.length body ↔ Accepts N pp st t := by
  constructor
  · intro h
    exact ⟨h.notExpired, h.someInput, h.inputsExist, h.rewardAccounts, h.valuePreserved, h.outputsLarge, h.network,
      ⟨_, ⟨bytes, h1, rfl⟩, h.feePaid, h.notTooBig⟩, ⟨body, h2, h.witnesses⟩⟩
  · intro h
    obtain ⟨s, ⟨bytes', e1, e2⟩, h3, h4⟩ := h.size
    obtain ⟨body', e3, h5⟩ := h.witnesses
    rw [h1] at e1; rw [h2] at e3
    obtain rfl := Out.ok.inj e1
    obtain rfl := Out.ok.inj e3
    subst e2
    exact ⟨h.notExpired, h.someInput, h.inputsExist, h.rewardAccounts, h.valuePreserved, h.outputsLarge, h.network, h3, h4, h5⟩

theorem head_prefix {m n m' n' : Nat} {p q r s : Bytes} (hp : Head m n p) (hq : Head m' n' q) (h : p ++ r = q ++ s) : r = s := by
  obtain ⟨i1, h1⟩ := head_parse hp r
  obtain ⟨i2, h2⟩ := head_parse hq s
  rw [h, h2] at h1
  simp only [Option.some.injEq, Prod.mk.injEq] at h1
  exact h1.2.2.2.symm

/-- The items of a byte string are unique. -/
theorem threeItems_unique {bytes : Bytes} {b w m b' w' m' : Item} {body body' : Bytes} (h : ThreeItems bytes b w m body)
    (h' : ThreeItems bytes b' w' m' body') : b = b' ∧ w = w' ∧ m = m' ∧ body = body' := by
  obtain ⟨⟨hd, ws, la, e, g1, g2, g3⟩, g4⟩ := h
  obtain ⟨⟨hd', ws', la', e', g1', g2', g3'⟩, g4'⟩ := h'
  rw [e] at e'
  simp only [List.append_assoc] at e'
  have e1 := head_prefix g1 g1' e'
  obtain ⟨rfl, rfl, e2⟩ := C47_prefix_free _ _ _ _ _ _ g4 g4' e1
  obtain ⟨rfl, rfl, e3⟩ := C47_prefix_free _ _ _ _ _ _ g2 g2' e2
  obtain ⟨rfl, -, -⟩ := C47_prefix_free _ _ la la' [] [] g3 g3' (by rw [e3])
  exact ⟨rfl, rfl, rfl, rfl⟩

/-- The bytes of a transaction are three items; the first are the bytes of its body. -/
theorem threeItems_serialize (t : Tx) (h : TxRep t) (hm : t.metadata = false) (bytes : Bytes) (hb : t.serialize = .ok bytes) :
    ∃ l body, t.body.ser = .ok l ∧ t.body.serialize = .ok body ∧ ThreeItems bytes (.map l) (.map t.wits.ser) .null body := by
  obtain ⟨l, hl, e⟩ := Out.bind_eq_ok.mp (show (t.ser >>= fun l => .ok (encArray l)) = .ok bytes from hb)
  simp only [Out.ok.injEq] at e; subst e
  have hwf := tx_wf t h l hl
  unfold Tx.ser at hl
  obtain ⟨bb, hbb, e⟩ := Out.bind_eq_ok.mp hl
  simp only [hm, Out.ok.injEq] at e
  subst e
  have wf : ∀ i ∈ [Item.map bb, .map t.wits.ser, .null], WF i := by
    cases hwf with | array _ hl => exact hl
  refine ⟨bb, enc (.map bb), hbb, ?_, ⟨⟨encHeader 4 3, enc (.map t.wits.ser), enc .null, ?_, head_enc 4 3 (by omega) (by omega),
    enc_encodes _ (wf _ (by simp)), enc_encodes _ (wf _ (by simp))⟩, enc_encodes _ (wf _ (by simp))⟩⟩
  · show (t.body.ser >>= fun l => .ok (encMap l)) = _
    rw [hbb]; rfl
  · rw [show ([Item.map bb, Item.map t.wits.ser] ++ if false = true then [] else [Item.null]) =
      [.map bb, .map t.wits.ser, .null] from rfl]
    simp only [encArray, enc, encList, List.length_cons, List.length_nil, List.append_nil, List.append_assoc]

/-- **C101** (any transaction).  Take a transaction that the library can hold — without metadata, update, scripts and Byron
witnesses — and its serialized bytes.  The network, which knows only the bytes, accepts them if and only if every certificate
conforms to the CDDL and the transaction in memory obeys the rules. -/
theorem C101_bytes_iff (N : Crypto) (pp : Params) (st : State) (t : Tx) (h : TxRep t) (hp : Plain t) (bytes : Bytes)
    (hb : t.serialize = .ok bytes) :
    AcceptsBytes N pp st bytes ↔ (∀ c ∈ t.body.certificates, CertConforms c) ∧ Accepts N pp st t := by
  obtain ⟨l, body, hl, hbody, h3⟩ := threeItems_serialize t h hp.noMetadata bytes hb
  have hw : Writable t ↔ ∀ c ∈ t.body.certificates, CertConforms c :=
    ⟨fun h => h.1, fun h => ⟨h, by rw [hp.noScripts]; simp, hp.noMetadata⟩⟩
  obtain ⟨i, hi, m1, m2⟩ := C99_written t h bytes [] hb
  have hi' : i = .array [.map l, .map t.wits.ser, .null] := by
    have hlt : t.ser = .ok [.map l, .map t.wits.ser, .null] := by
      unfold Tx.ser; rw [hl, hp.noMetadata]; rfl
    have := hb
    unfold Tx.serialize at this
    rw [hlt] at this
    obtain rfl := Out.ok.inj this
    have := parse_enc_append _ (tx_wf t h _ hlt) []
    rw [show enc (.array [.map l, .map t.wits.ser, .null]) = encArray [.map l, .map t.wits.ser, .null] from rfl, hi] at this
    exact Option.some.inj this
  rw [← rules_accepts N pp st t bytes body hb hbody]
  constructor
  · rintro ⟨b', w', m', body', t', g1, g2, -, g4⟩
    obtain ⟨rfl, rfl, rfl, rfl⟩ := threeItems_unique g1 h3
    rw [← hi'] at g2
    by_cases hwr : Writable t
    · have := (C99_grammar _).2 _ _ (m1 hwr) g2
      subst this
      exact ⟨hw.mp hwr, (rules_written N pp st t _ _).mp g4⟩
    · exact absurd g2 (m2 hwr t')
  · rintro ⟨hc, hr⟩
    refine ⟨_, _, _, body, txWritten t, h3, ?_, ?_, (rules_written N pp st t _ _).mpr hr⟩
    · rw [← hi']; exact m1 (hw.mpr hc)
    · exact ⟨rfl, hp.noHash, hp.noScripts, rfl, hp.noMetadata⟩

/-! ## Builders -/

theorem rest_step (E : Env) (k : Nat) (b b' : Builder) (op : Op) (o : Out Unit) (h : step E k b op = some (b', o)) :
    b'.tx.wits.multisig = b.tx.wits.multisig ∧ b'.tx.wits.bootstrap = b.tx.wits.bootstrap ∧ b'.tx.metadata = b.tx.metadata := by
  cases op <;> simp only [step, Option.some.injEq, Prod.mk.injEq] at h
  case addInput u =>
    unfold addInput at h
    split at h <;> (simp only [Prod.mk.injEq] at h; rw [← h.1]; exact ⟨rfl, rfl, rfl⟩)
  case updateFee m => obtain ⟨f, rfl⟩ := updateFee_frame k b b' m o h; exact ⟨rfl, rfl, rfl⟩
  case balance m force => obtain ⟨outs, fee, rfl⟩ := balance_frame k b b' m force o h; exact ⟨rfl, rfl, rfl⟩
  case sign key =>
    rcases sign_cases E b key with ⟨pub, sig, hw, hs⟩ | hs
    · rw [hs] at h; simp only [Prod.mk.injEq] at h; rw [← h.1]; exact ⟨rfl, rfl, rfl⟩
    · have : b' = b := by rw [← hs, h]
      rw [this]; exact ⟨rfl, rfl, rfl⟩
  all_goals (rw [← h.1]; exact ⟨rfl, rfl, rfl⟩)

theorem rest_run (E : Env) (k : Nat) (ops : List Op) : ∀ b b', run E k b ops = some b' →
    b'.tx.wits.multisig = b.tx.wits.multisig ∧ b'.tx.wits.bootstrap = b.tx.wits.bootstrap ∧ b'.tx.metadata = b.tx.metadata := by
  induction ops with
  | nil => intro b b' h; simp only [run, Option.some.injEq] at h; subst h; exact ⟨rfl, rfl, rfl⟩
  | cons op ops ih =>
    intro b b' h
    rw [run] at h
    split at h
    · cases h
    · cases h
    · rename_i b1 o _ hst
      obtain ⟨a1, a2, a3⟩ := rest_step E k b b1 op o hst
      obtain ⟨c1, c2, c3⟩ := ih b1 b' h
      exact ⟨c1.trans a1, c2.trans a2, c3.trans a3⟩

theorem plain_run (E : Env) (k : Nat) (ops : List Op) (b b' : Builder) (hp : Plain b.tx) (h : run E k b ops = some b') :
    Plain b'.tx := by
  obtain ⟨a1, a2, a3⟩ := rest_run E k ops b b' h
  obtain ⟨-, -, -, -, a4, a5, -⟩ := run_facts E k ops b b' h
  exact ⟨a5.trans hp.noUpdate, a4.trans hp.noHash, a1.trans hp.noScripts, a2.trans hp.noBootstrap, a3.trans hp.noMetadata⟩

theorem relayConforms_iff (r : Relay) : RelayConforms r ↔ RelayWritable r := by
  rcases r with _ | ⟨_ | v4, v6, p⟩ | ⟨d, p⟩ | d <;> simp [RelayConforms, RelayWritable]

theorem certs_conform_iff (ops : List Op) :
    (∀ c ∈ (certsOf ops).map (·.1), CertConforms c) ↔ ∀ p d, Op.poolRegistration p d ∈ ops → PoolWritable p := by
  induction ops with
  | nil => simp [certsOf]
  | cons op ops ih =>
    cases op <;> simp [certsOf, CertConforms, relayConforms_iff, PoolWritable] at ih ⊢ <;> first | exact ih | skip
    rw [ih]
    constructor
    · rintro ⟨h1, h2⟩ p d (⟨rfl, -⟩ | h)
      · exact h1
      · exact h2 p d h
    · intro h
      exact ⟨h _ _ (Or.inl ⟨rfl, rfl⟩), fun p d hp => h p d (Or.inr hp)⟩

/-- **C101** (any history).  After any calls on a new builder, with arguments of their C++ sizes, the transaction in it can be
held and is plain: its bytes are accepted by the network if and only if every pool registration of the history can be read
by the network and the transaction in memory obeys the rules. -/
theorem C101_builder_iff (E : Env) (N : Crypto) (pp : Params) (st : State) (k : Nat) (ops : List Op) (b : Builder)
    (h : run E k {} ops = some b) (ha : ∀ op ∈ ops, ArgsWF op) (hn : ops.length < 2 ^ 62) :
    TxRep b.tx ∧ Plain b.tx ∧ ∀ bytes, b.tx.serialize = .ok bytes →
      (AcceptsBytes N pp st bytes ↔ (∀ p d, Op.poolRegistration p d ∈ ops → PoolWritable p) ∧ Accepts N pp st b.tx) := by
  have hr : TxRep b.tx := (made_run E k ops 0 {} b ha (made_new 0) h).rep (by omega)
  have hp : Plain b.tx := plain_run E k ops {} b ⟨rfl, rfl, rfl, rfl, rfl⟩ h
  refine ⟨hr, hp, fun bytes hb => ?_⟩
  rw [C101_bytes_iff N pp st b.tx hr hp bytes hb]
  obtain ⟨-, -, hc, -⟩ := run_facts E k ops {} b h
  rw [hc, show ({} : Builder).tx.body.certificates = [] from rfl, List.nil_append, certs_conform_iff]

/-- **C101** (a careful wallet).  Under the conditions of C91, with pool registrations that the network can read, the
bytes of the balanced and signed transaction are accepted by the network. -/
theorem C101_careful (E : Env) (N : Crypto) (hN : SameCrypto E N) (pp : Params) (st : State) (k n : Nat)
    (force : Bool) (ops : List Op) (keys : List SKey) (b0 b1 : Builder)
    (h0 : run E k {} ops = some b0) (h1 : balance k b0 n force = some (b1, .ok ()))
    (hc : Careful E N pp st keys ops) (hn : keys.length ≤ n)
    (hsign : ∀ id, getID E b1 = .ok id → ∀ key ∈ keys, CanSign E id key)
    (hmin : pp.minUtxo ≤ 1000000)
    (hmax : ∀ ws s, ws.length = n → (∀ w ∈ ws, WitnessSized w) → TxSize (withWitnesses b1.tx ws) s → s ≤ pp.maxTxSize)
    (hfit : minFee pp.minFeeA pp.minFeeB (pp.maxTxSize + 8) < 2 ^ 62)
    (ha : ∀ op ∈ ops, ArgsWF op) (hk : ∀ key ∈ keys, KeyWF key) (hlen : ops.length + keys.length < 2 ^ 61)
    (hpools : ∀ p d, Op.poolRegistration p d ∈ ops → PoolWritable p) :
    ∃ b2 bytes, run E k {} (ops ++ .balance n force :: keys.map .sign) = some b2 ∧ b2.tx.serialize = .ok bytes ∧
      AcceptsBytes N pp st bytes := by
  obtain ⟨b2, h2, -, h4⟩ := C91_careful E N hN pp st k n force ops keys b0 b1 h0 h1 hc hn hsign hmin hmax hfit
  obtain ⟨s, ⟨bytes, hb, -⟩, -⟩ := h4.size
  refine ⟨b2, bytes, h2, hb, ((C101_builder_iff E N pp st k _ b2 h2 ?_ ?_).2.2 bytes hb).mpr ⟨?_, h4⟩⟩
  · intro op hop
    rcases List.mem_append.mp hop with hop | hop
    · exact ha op hop
    · rcases List.mem_cons.mp hop with rfl | hop
      · trivial
      · obtain ⟨key, hkey, rfl⟩ := List.mem_map.mp hop
        exact hk key hkey
  · simp; omega
  · intro p d hp
    rcases List.mem_append.mp hp with hp | hp
    · exact hpools p d hp
    · simp at hp

/-! ## A concrete case -/

/-- The hypotheses of `C101_builder_iff` are met by the wallet of C91, and its bytes are accepted. -/
theorem toySent : ∃ b2 bytes, run toyWalletEnv 12 {} (toyOps ++ [.balance 1 true, .sign (.ed (List.replicate 32 7))]) = some b2 ∧
    b2.tx.serialize = .ok bytes ∧ AcceptsBytes toyNetwork toyParams toyState bytes := by
  obtain ⟨b2, r1, r2⟩ := toyAccepted
  obtain ⟨s, ⟨bytes, hb, -⟩, -⟩ := r2.size
  refine ⟨b2, bytes, r1, hb, ((C101_builder_iff _ _ _ _ _ _ _ r1 ?_ (by decide)).2.2 bytes hb).mpr ⟨?_, r2⟩⟩
  · intro op hop
    simp only [toyOps, List.cons_append, List.nil_append, List.mem_cons, List.not_mem_nil, or_false] at hop
    rcases hop with rfl | rfl | rfl | rfl | rfl | rfl | rfl | rfl | rfl <;> simp [ArgsWF, KeyWF]
  · intro p d hp
    simp [toyOps] at hp

end Cardano.TxBuilder
