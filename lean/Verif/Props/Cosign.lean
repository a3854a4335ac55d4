import Verif.Props.Wire
import Verif.Spec.Cosign

/-! # Several wallets sign one transaction (C102) -/

namespace Cardano.TxBuilder

open Cardano Cardano.Cbor Cardano.Ledger Cardano.Address Cardano.Spec.TxBuilder Cardano.Spec.Ledger Cardano.Spec.LedgerRules
  Cardano.Spec.Wallet Cardano.Spec.Wire Cardano.Spec.Rfc8949 Cardano.Spec.Cosign

/-! ## Signing looks only at the transaction -/

theorem step_sign (E : Env) (k : Nat) (b : Builder) (key : SKey) : step E k b (.sign key) = some (sign E b key) := rfl

theorem sign_tx (E : Env) (b b2 : Builder) (key : SKey) (h : b.tx = b2.tx) :
    (sign E b key).1.tx = (sign E b2 key).1.tx ∧ (sign E b key).2 = (sign E b2 key).2 := by
  have hw : witnessFor E b key = witnessFor E b2 key := by
    unfold witnessFor makeWitness getID; rw [h]
  unfold sign
  rw [hw]
  cases witnessFor E b2 key with
  | ok p => exact ⟨by dsimp only; rw [h], rfl⟩
  | throw e => exact ⟨h, rfl⟩
  | ub => exact ⟨h, rfl⟩

theorem run_sign_cons (E : Env) (k : Nat) (b : Builder) (key : SKey) (keys : List SKey) :
    run E k b ((key :: keys).map .sign) =
      if (sign E b key).2 = .ub then none else run E k (sign E b key).1 (keys.map .sign) := by
  rw [List.map_cons, run, step_sign]
  rcases h : sign E b key with ⟨b', o⟩
  cases o <;> simp

theorem signs_tx (E : Env) (k : Nat) (keys : List SKey) : ∀ b b2 : Builder, b.tx = b2.tx →
    (run E k b (keys.map .sign)).map (·.tx) = (run E k b2 (keys.map .sign)).map (·.tx) := by
  induction keys with
  | nil => intro b b2 h; simp [run, h]
  | cons key keys ih =>
    intro b b2 h
    obtain ⟨h1, h2⟩ := sign_tx E b b2 key h
    rw [run_sign_cons, run_sign_cons, h2]
    split
    · rfl
    · exact ih _ _ h1

theorem signs_wits (E : Env) (k : Nat) (keys : List SKey) : ∀ b b' : Builder, run E k b (keys.map .sign) = some b' →
    ∃ ws, b'.tx = withWitnesses b.tx ws ∧ ws.length ≤ b.tx.wits.vkeys.length + keys.length ∧
      (∀ w ∈ ws, w ∈ b.tx.wits.vkeys ∨ (w.vkey.length = 32 ∧ w.sig.length = 64)) ∧
      (∀ w ∈ b.tx.wits.vkeys, (∀ key ∈ keys, key.pub E ≠ .ok w.vkey) → w ∈ ws) := by
  induction keys with
  | nil =>
    intro b b' h
    simp only [List.map_nil, run, Option.some.injEq] at h
    subst h
    exact ⟨b.tx.wits.vkeys, rfl, by simp, fun w hw => Or.inl hw, fun w hw _ => hw⟩
  | cons key keys ih =>
    intro b b' h
    rw [run_sign_cons] at h
    split at h
    · cases h
    · obtain ⟨ws, h1, h2, h3, h4⟩ := ih _ _ h
      rcases sign_cases E b key with ⟨pub, sig, hw, hs⟩ | hs
      · rw [hs] at h1 h2 h3 h4
        dsimp only at h1 h2 h3 h4
        unfold witnessFor at hw
        obtain ⟨s, e1, hw⟩ := Out.bind_eq_ok.mp hw
        obtain ⟨p, e2, hw⟩ := Out.bind_eq_ok.mp hw
        simp only [Out.ok.injEq, Prod.mk.injEq] at hw
        obtain ⟨rfl, rfl⟩ := hw
        obtain ⟨id, -, e1⟩ := Out.bind_eq_ok.mp e1
        have hsz := key_sized E key id _ _ e2 e1
        refine ⟨ws, h1, ?_, fun w hw => ?_, fun w hw hk => ?_⟩
        · have := List.length_filter_le (fun w : VkeyWitness => !(w.vkey == p)) b.tx.wits.vkeys
          unfold replaceWitness at h2
          simp only [List.length_append, List.length_cons, List.length_nil] at h2 ⊢
          omega
        · rcases h3 w hw with h3 | h3
          · rcases List.mem_append.mp h3 with h3 | h3
            · exact Or.inl (List.mem_filter.mp h3).1
            · rw [List.mem_singleton] at h3; rw [h3]; exact Or.inr hsz
          · exact Or.inr h3
        · refine h4 w ?_ fun key' hk' => hk key' (by simp [hk'])
          refine List.mem_append.mpr (Or.inl (List.mem_filter.mpr ⟨hw, ?_⟩))
          have : w.vkey ≠ p := fun e => hk key (by simp) (by rw [e2, e])
          simp [this]
      · rw [hs] at h1 h2 h3 h4
        refine ⟨ws, h1, by simp only [List.length_cons]; omega, h3, fun w hw hk => h4 w hw fun key' hk' => hk key' (by simp [hk'])⟩

theorem rep_withWitnesses (t : Tx) (h : TxRep t) (ws : List VkeyWitness) (hl : ws.length < 2 ^ 63)
    (hw : ∀ w ∈ ws, w ∈ t.wits.vkeys ∨ (w.vkey.length = 32 ∧ w.sig.length = 64)) : TxRep (withWitnesses t ws) := by
  obtain ⟨h1, ⟨-, h2⟩, h3⟩ := h
  refine ⟨h1, ⟨?_, fun v hv => ?_⟩, h3⟩
  · show 2 * ws.length < 2 ^ 64; omega
  · rcases hw v hv with h | h
    · exact h2 v h
    · exact h

theorem plain_withWitnesses (t : Tx) (h : Plain t) (ws : List VkeyWitness) : Plain (withWitnesses t ws) :=
  ⟨h.noUpdate, h.noHash, h.noScripts, h.noBootstrap, h.noMetadata⟩

/-! ## Loading -/

theorem fromCBOR_eq (bytes : Bytes) (t : Tx) (h : Tx.deserialize {} bytes = .ok t) : fromCBOR bytes = .ok (ofTx t) := by
  unfold fromCBOR; rw [h]; rfl

theorem fromCBOR_inv (bytes : Bytes) (b : Builder) (h : fromCBOR bytes = .ok b) :
    Tx.deserialize {} bytes = .ok b.tx ∧ b = ofTx b.tx := by
  obtain ⟨t, h1, h2⟩ := Out.bind_eq_ok.mp h
  injection h2 with h2
  subst h2
  exact ⟨h1, rfl⟩

/-- The bytes of a transaction decode to it if and only if it is preserved. -/
theorem reads_back_iff (t : Tx) (h : TxRep t) (bytes : Bytes) (hb : t.serialize = .ok bytes) :
    Tx.deserialize {} bytes = .ok t ↔ BodyPreserved t.body ∧ WitsPreserved t.wits ∧ t.metadata = false := by
  rw [← C43_transaction_iff_partial t h]
  have e : ∀ rest, Tx.deserialize {} (bytes ++ rest) = Tx.deserialize {} bytes := by
    intro rest
    obtain ⟨l, hl, e⟩ := Out.bind_eq_ok.mp (show (t.ser >>= fun l => .ok (encArray l)) = .ok bytes from hb)
    simp only [Out.ok.injEq] at e; subst e
    have h1 := parse_enc_append _ (tx_wf t h l hl) rest
    have h2 := parse_enc_append _ (tx_wf t h l hl) []
    rw [List.append_nil] at h2
    unfold Tx.deserialize deserializeArray
    rw [show encArray l = enc (.array l) from rfl, h1, h2]
  constructor
  · intro hd
    exact ⟨bytes, hb, fun rest => by rw [e, hd]⟩
  · rintro ⟨s, hs, hd⟩
    rw [hb] at hs
    obtain rfl := Out.ok.inj hs
    rw [← e []]; exact hd []

/-- The certificates of a history: those of the pool registrations, and others. -/
theorem certsOf_forall (P : Certificate → Prop) (h1 : ∀ c, P (.stakeReg c)) (h2 : ∀ c, P (.stakeDereg c)) (h3 : ∀ c p, P (.delegation c p))
    (h4 : ∀ p e, P (.poolRetire p e)) (ops : List Op) :
    (∀ c ∈ (certsOf ops).map (·.1), P c) ↔ ∀ p d, Op.poolRegistration p d ∈ ops → P (.poolReg p) := by
  induction ops with
  | nil => simp [certsOf]
  | cons op ops ih =>
    cases op <;> simp [certsOf, h1, h2, h3, h4] at ih ⊢ <;> first | exact ih | skip
    rw [ih]
    constructor
    · rintro ⟨h1, h2⟩ p d (⟨rfl, -⟩ | h)
      · exact h1
      · exact h2 p d h
    · intro h
      exact ⟨h _ _ (Or.inl ⟨rfl, rfl⟩), fun p d hp => h p d (Or.inr hp)⟩

/-- **C102** (loading, exact).  After any calls on a new builder, the builder that another wallet loads from the bytes holds the same
transaction if and only if no call registered a pool with relays or metadata, or with a margin of denominator 0. -/
theorem C102_loaded_iff (E : Env) (k : Nat) (ops : List Op) (b : Builder) (h : run E k {} ops = some b) (ha : ∀ op ∈ ops, ArgsWF op)
    (hn : ops.length < 2 ^ 62) (bytes : Bytes) (hb : b.tx.serialize = .ok bytes) :
    (∃ b', fromCBOR bytes = .ok b' ∧ b'.tx = b.tx) ↔
      ∀ p d, Op.poolRegistration p d ∈ ops → p.relays = [] ∧ p.metadata = none ∧ p.margin.den ≠ 0 := by
  have hr : TxRep b.tx := (made_run E k ops 0 {} b ha (made_new 0) h).rep (by omega)
  have hp : Plain b.tx := plain_run E k ops {} b ⟨rfl, rfl, rfl, rfl, rfl⟩ h
  have h1 : (∃ b', fromCBOR bytes = .ok b' ∧ b'.tx = b.tx) ↔ Tx.deserialize {} bytes = .ok b.tx := by
    constructor
    · rintro ⟨b', h1, h2⟩; rw [← h2]; exact (fromCBOR_inv bytes b' h1).1
    · intro h; exact ⟨_, fromCBOR_eq bytes _ h, rfl⟩
  rw [h1, reads_back_iff b.tx hr bytes hb]
  have h2 : (BodyPreserved b.tx.body ∧ WitsPreserved b.tx.wits ∧ b.tx.metadata = false) ↔
      ∀ c ∈ (certsOf ops).map (·.1), CertPreserved c := by
    obtain ⟨-, -, hc, -⟩ := run_facts E k ops {} b h
    rw [show ({} : Builder).tx.body.certificates = [] from rfl, List.nil_append] at hc
    rw [← hc]
    exact ⟨fun h => h.1.2, fun h => ⟨⟨hp.noUpdate, h⟩, ⟨hp.noScripts, hp.noBootstrap⟩, hp.noMetadata⟩⟩
  rw [h2, certsOf_forall CertPreserved (fun _ => trivial) (fun _ => trivial) (fun _ _ => trivial) (fun _ _ => trivial)]
  rfl

/-! ## A chain of wallets -/

theorem serialize_of_body (t : Tx) (l : List Item) (h : t.body.ser = .ok l) : ∃ s, t.serialize = .ok s := by
  refine ⟨encArray ([.map l, .map t.wits.ser] ++ if t.metadata then [] else [.null]), ?_⟩
  show (t.ser >>= fun l => .ok (encArray l)) = _
  unfold Tx.ser
  rw [h]; rfl

theorem serialize_withWitnesses (t : Tx) (ws : List VkeyWitness) (bytes : Bytes) (h : t.serialize = .ok bytes) :
    ∃ s, (withWitnesses t ws).serialize = .ok s := by
  obtain ⟨l, hl, -⟩ := Out.bind_eq_ok.mp (show (t.ser >>= fun l => .ok (encArray l)) = .ok bytes from h)
  unfold Tx.ser at hl
  obtain ⟨bb, hbb, -⟩ := Out.bind_eq_ok.mp hl
  exact serialize_of_body (withWitnesses t ws) bb hbb

theorem chain (E : Env) (k : Nat) (rounds : List (List SKey)) : ∀ (b : Builder) (bytes : Bytes), TxRep b.tx →
    BodyPreserved b.tx.body → WitsPreserved b.tx.wits → b.tx.metadata = false →
    b.tx.wits.vkeys.length + rounds.flatten.length < 2 ^ 63 → b.tx.serialize = .ok bytes →
    rounds.foldlM (passOn E k) bytes = (run E k b (rounds.flatten.map .sign)).bind fun b' => bytesOf b'.tx := by
  induction rounds with
  | nil =>
    intro b bytes _ _ _ _ _ hb
    simp only [List.foldlM_nil, List.flatten_nil, List.map_nil, run, Option.bind_some, bytesOf, hb]
    rfl
  | cons keys rounds ih =>
    intro b bytes hr hbp hwp hm hlen hb
    have hload := fromCBOR_eq bytes b.tx ((reads_back_iff b.tx hr bytes hb).mpr ⟨hbp, hwp, hm⟩)
    rw [List.foldlM_cons, List.flatten_cons, List.map_append, run_append]
    rw [List.flatten_cons, List.length_append] at hlen
    unfold passOn
    rw [hload]
    dsimp only
    have hs := signs_tx E k keys (ofTx b.tx) b rfl
    cases h1 : run E k (ofTx b.tx) (keys.map .sign) with
    | none =>
      rw [h1] at hs
      cases h2 : run E k b (keys.map .sign) with
      | none => rfl
      | some b2 => rw [h2] at hs; simp at hs
    | some b1 =>
      rw [h1] at hs
      cases h2 : run E k b (keys.map .sign) with
      | none => rw [h2] at hs; simp at hs
      | some b2 =>
        rw [h2] at hs
        simp only [Option.map_some, Option.some.injEq] at hs
        obtain ⟨ws, e1, e2, e3, -⟩ := signs_wits E k keys b b2 h2
        obtain ⟨s, hser⟩ := serialize_withWitnesses b.tx ws bytes hb
        rw [← e1] at hser
        have hbytes : bytesOf b1.tx = some s := by unfold bytesOf; rw [hs, hser]
        dsimp only
        rw [Option.bind_some, hbytes]
        have hvk : b2.tx.wits.vkeys = ws := by rw [e1]; rfl
        refine ih b2 s ?_ ?_ ?_ ?_ (by rw [hvk]; omega) hser
        · rw [e1]; exact rep_withWitnesses b.tx hr ws (by omega) e3
        · rw [e1]; exact hbp
        · rw [e1]; exact hwp
        · rw [e1]; exact hm

/-- **C102** (a chain of wallets).  Any calls on a new builder without pool registrations; its bytes go from wallet to wallet, each
loads them, signs with its keys and sends its bytes on.  The last bytes are those that the first builder would give after signing with all
the keys. -/
theorem C102_chain_partial (E : Env) (k : Nat) (ops : List Op) (b : Builder) (h : run E k {} ops = some b) (ha : ∀ op ∈ ops, ArgsWF op)
    (hnp : NoPool ops) (rounds : List (List SKey)) (hn : ops.length + rounds.flatten.length < 2 ^ 62) (bytes : Bytes)
    (hb : b.tx.serialize = .ok bytes) :
    rounds.foldlM (passOn E k) bytes = (run E k {} (ops ++ rounds.flatten.map .sign)).bind fun b' => bytesOf b'.tx := by
  have hmade := made_run E k ops 0 {} b ha (made_new 0) h
  have hr : TxRep b.tx := hmade.rep (by omega)
  have hp : Plain b.tx := plain_run E k ops {} b ⟨rfl, rfl, rfl, rfl, rfl⟩ h
  obtain ⟨b', h1, h2⟩ := (C102_loaded_iff E k ops b h ha (by omega) bytes hb).mpr fun p d hpd => absurd hpd (hnp p d)
  have hpres := (reads_back_iff b.tx hr bytes hb).mp (by rw [← h2]; exact (fromCBOR_inv bytes b' h1).1)
  have hv := hmade.vkeys.1
  rw [chain E k rounds b bytes hr hpres.1 hpres.2.1 hpres.2.2 (by omega) hb, run_append, h]

/-- **C102** (end to end).  A careful preparation (C91) without pool registrations, for keys held by several wallets: the transaction is
balanced by the first, its bytes are passed from wallet to wallet, and the bytes that come out are accepted by the network. -/
theorem C102_accepted_partial (E : Env) (N : Crypto) (hN : SameCrypto E N) (pp : Params) (st : State) (k n : Nat)
    (force : Bool) (ops : List Op) (rounds : List (List SKey)) (b0 b1 : Builder)
    (h0 : run E k {} ops = some b0) (h1 : balance k b0 n force = some (b1, .ok ()))
    (hc : Careful E N pp st rounds.flatten ops) (hn : rounds.flatten.length ≤ n)
    (hsign : ∀ id, getID E b1 = .ok id → ∀ key ∈ rounds.flatten, CanSign E id key)
    (hmin : pp.minUtxo ≤ 1000000)
    (hmax : ∀ ws s, ws.length = n → (∀ w ∈ ws, WitnessSized w) → TxSize (withWitnesses b1.tx ws) s → s ≤ pp.maxTxSize)
    (hfit : minFee pp.minFeeA pp.minFeeB (pp.maxTxSize + 8) < 2 ^ 62)
    (ha : ∀ op ∈ ops, ArgsWF op) (hk : ∀ key ∈ rounds.flatten, KeyWF key) (hlen : ops.length + rounds.flatten.length < 2 ^ 61)
    (hnp : NoPool ops) :
    ∃ bytes sent, b1.tx.serialize = .ok bytes ∧ rounds.foldlM (passOn E k) bytes = some sent ∧ AcceptsBytes N pp st sent := by
  obtain ⟨b2, sent, r1, r2, r3⟩ := C101_careful E N hN pp st k n force ops rounds.flatten b0 b1 h0 h1 hc hn hsign hmin hmax hfit ha hk hlen
    fun p d hp => absurd hp (hnp p d)
  have hrun : run E k {} (ops ++ [.balance n force]) = some b1 := by
    rw [run_append, h0]; simp only [run, step, h1]
  have hser : ∃ bytes, b1.tx.serialize = .ok bytes := by
    obtain ⟨bytes, hbytes, -⟩ := balanced_getID E k n force b0 b1 h1
    obtain ⟨l, hl, -⟩ := Out.bind_eq_ok.mp (show (b1.tx.body.ser >>= fun l => .ok (encMap l)) = .ok bytes from hbytes)
    exact serialize_of_body b1.tx l hl
  obtain ⟨bytes, hb⟩ := hser
  refine ⟨bytes, sent, hb, ?_, r3⟩
  rw [C102_chain_partial E k (ops ++ [.balance n force]) b1 hrun ?_ ?_ rounds ?_ bytes hb, List.append_assoc, List.singleton_append, r1,
    Option.bind_some, bytesOf, r2]
  · intro op hop
    rcases List.mem_append.mp hop with hop | hop
    · exact ha op hop
    · rw [List.mem_singleton] at hop; subst hop; trivial
  · intro p d hp
    rcases List.mem_append.mp hp with hp | hp
    · exact hnp p d hp
    · simp at hp
  · simp only [List.length_append, List.length_cons, List.length_nil]; omega

/-! ## What goes wrong -/

/-- The transaction that a wallet sends on after loading some bytes and signing. -/
theorem passed_rep (E : Env) (k : Nat) (rb : Bytes) (hlen : rb.length < 2 ^ 63) (b0 b1 : Builder) (h0 : fromCBOR rb = .ok b0)
    (keys : List SKey) (h1 : run E k b0 (keys.map .sign) = some b1) (hn : b0.tx.wits.vkeys.length + keys.length < 2 ^ 63) :
    TxRep b1.tx ∧ b1.tx.body = b0.tx.body ∧ (b0.tx.body.metadataHash = none → Plain b1.tx) := by
  obtain ⟨hd, -⟩ := fromCBOR_inv rb b0 h0
  obtain ⟨d1, d2, d3, d4, d5⟩ := tx_dec hlen hd
  obtain ⟨ws, e1, e2, e3, -⟩ := signs_wits E k keys b0 b1 h1
  rw [e1]
  exact ⟨rep_withWitnesses _ d1 ws (by omega) e3, rfl, fun hh => ⟨d2, hh, d4.1, d4.2, d5⟩⟩

/-- **C102** fails for pool registrations: if the bytes that a wallet received mean a transaction which registers a pool, then what it
sends on — if it can load them at all — is never accepted, whoever has signed it. -/
theorem C102_pool_rejected (E : Env) (N : Crypto) (pp : Params) (st : State) (k : Nat) (rb : Bytes) (hlen : rb.length < 2 ^ 63)
    (i : Item) (t : Tx) (hi : parse rb = some i) (ht : TxMeans i t) (hh : t.body.metadataHash = none) (p : PoolParams) (hp : .poolReg p ∈ t.body.certificates)
    (keys : List SKey) (hn : t.wits.vkeys.length + keys.length < 2 ^ 63) (sent : Bytes) (hs : passOn E k rb keys = some sent) :
    ¬ AcceptsBytes N pp st sent := by
  unfold passOn at hs
  split at hs
  · rename_i b0 h0
    obtain ⟨b1, h1, hs⟩ := Option.bind_eq_some_iff.mp hs
    have hser : b1.tx.serialize = .ok sent := by
      unfold bytesOf at hs
      split at hs
      · rename_i s hser; rw [hser]; rw [Option.some.inj hs]
      · cases hs
    obtain ⟨hd, -⟩ := fromCBOR_inv rb b0 h0
    obtain ⟨c1, c2⟩ := C99_read rb i t hi ht
    have hread : ∀ c ∈ t.body.certificates, CertReadable c := by
      by_contra hcon
      push Not at hcon
      exact c2 hcon _ hd
    have e0 : b0.tx = txRead t := Out.ok.inj (hd.symm.trans (c1 hread))
    obtain ⟨r1, r2, r3⟩ := passed_rep E k rb hlen b0 b1 h0 keys h1 (by rw [e0]; exact hn)
    have hpl := r3 (by rw [e0]; exact hh)
    rw [C101_bytes_iff N pp st b1.tx r1 hpl sent hser]
    rintro ⟨hc, -⟩
    have hmem : Certificate.poolReg { p with relays := [], metadata := none } ∈ b1.tx.body.certificates := by
      rw [r2, e0]
      exact List.mem_map.mpr ⟨_, hp, rfl⟩
    exact (hc _ hmem).2.1 rfl
  · cases hs

/-- The certificates that loading keeps as they are. -/
def KeptCert : Certificate → Prop
  | .poolReg _ => False
  | .genesisDeleg _ _ _ => False
  | _ => True

theorem certMeans_conforms (i : Item) (c : Certificate) (h : CertMeans i c) (hk : KeptCert c) : CertConforms c := by
  cases c with
  | empty => exact h
  | poolReg p => exact absurd hk id
  | mir m =>
    obtain ⟨x, -, ps, -, hnd, hf⟩ := h
    show (m.creds.map (·.1)).Nodup
    have : ps.map (·.1) = (m.creds.map (·.1)).map fun c => Item.array c.ser := by
      clear hnd
      generalize m.creds = cs at hf
      induction hf with
      | nil => rfl
      | @cons kv e _ _ h1 _ ih =>
        rw [List.map_cons, List.map_cons, List.map_cons, ih]
        congr 1
        obtain ⟨⟨ty, h⟩, n⟩ := e
        cases ty <;> exact h1.1.1
    rw [this] at hnd
    exact hnd.of_map _
  | _ => trivial

theorem bodyMeans_certs {i : Item} {b : TxBody} (h : BodyMeans i b) : ∀ c ∈ b.certificates, ∃ x, CertMeans x c := by
  obtain ⟨ps, -, -, -, -, -, -, -, hc, -⟩ := h
  intro c hmem
  rcases hc with ⟨v, -, xs, -, hf⟩ | ⟨-, hf⟩
  · clear * - hf hmem
    generalize b.certificates = cs at hf hmem
    induction hf with
    | nil => cases hmem
    | cons h _ ih =>
      rcases List.mem_cons.mp hmem with rfl | hm
      · exact ⟨_, h⟩
      · exact ih hm
  · rw [hf] at hmem; cases hmem

theorem certs_ser_ok (cs : List Certificate) (h : ∀ c ∈ cs, KeptCert c) : ∃ l, certsEntry cs = .ok l := by
  have : ∃ l, mapOut Certificate.ser cs = .ok l := by
    induction cs with
    | nil => exact ⟨[], rfl⟩
    | cons c cs ih =>
      obtain ⟨l, hl⟩ := ih fun c' hc' => h c' (by simp [hc'])
      have hc : ∃ x, c.ser = .ok x := by
        have := h c (by simp)
        cases c <;> first | exact ⟨_, rfl⟩ | exact absurd this id
      obtain ⟨x, hx⟩ := hc
      exact ⟨x :: l, by rw [mapOut, hx, hl]; rfl⟩
  obtain ⟨l, hl⟩ := this
  unfold certsEntry
  rw [hl]
  split
  · exact ⟨_, rfl⟩
  · exact ⟨_, rfl⟩

/-- **C102** (foreign bytes).  A wallet receives bytes in any encoding — made by other software — that mean a plain
transaction without pool registrations.  It loads exactly this transaction; what it sends on has the same body and keeps the witnesses of
other keys; the network judges it by the library's encoding of the body, which all signatures have to fit, whatever encoding of it
was received and signed. -/
theorem C102_foreign (E : Env) (N : Crypto) (pp : Params) (st : State) (k : Nat) (rb : Bytes) (hlen : rb.length < 2 ^ 63)
    (i : Item) (t : Tx) (hi : parse rb = some i) (ht : TxMeans i t) (hp : Plain t) (hc : ∀ c ∈ t.body.certificates, KeptCert c)
    (keys : List SKey) (hn : t.wits.vkeys.length + keys.length < 2 ^ 63) :
    ∃ b0, fromCBOR rb = .ok b0 ∧ b0.tx = t ∧ ∀ b1, run E k b0 (keys.map .sign) = some b1 →
      ∃ sent body, b1.tx.serialize = .ok sent ∧ t.body.serialize = .ok body ∧ b1.tx.body = t.body ∧
        (∀ w ∈ t.wits.vkeys, (∀ key ∈ keys, key.pub E ≠ .ok w.vkey) → w ∈ b1.tx.wits.vkeys) ∧
        (AcceptsBytes N pp st sent ↔ Rules N pp st b1.tx sent.length body) := by
  have hread : ∀ c ∈ t.body.certificates, CertReadable c := by
    intro c hcm
    have := hc c hcm
    cases c <;> first | trivial | exact absurd this id
  have e0 : txRead t = t := by
    have hmap : t.body.certificates.map certRead = t.body.certificates := by
      rw [map_eq_self]
      intro c hcm
      have := hc c hcm
      cases c <;> first | rfl | exact absurd this id
    obtain ⟨⟨_, _, _, _, _, _, _, _⟩, ⟨_, _, _⟩, _⟩ := t
    obtain ⟨p1, p2, p3, p4, p5⟩ := hp
    simp only at p1 p2 p3 p4 p5 hmap
    simp [txRead, hmap, p1, p3, p4, p5]
  have hd := (C99_read rb i t hi ht).1 hread
  rw [e0] at hd
  have hload := fromCBOR_eq rb t hd
  refine ⟨ofTx t, hload, rfl, fun b1 h1 => ?_⟩
  obtain ⟨r1, r2, r3⟩ := passed_rep E k rb hlen _ b1 hload keys h1 hn
  obtain ⟨ws, e1, -, -, e4⟩ := signs_wits E k keys _ b1 h1
  obtain ⟨cs, hcs⟩ := certs_ser_ok t.body.certificates hc
  obtain ⟨l, hl⟩ : ∃ l, t.body.ser = .ok l := by unfold TxBody.ser; rw [hcs]; exact ⟨_, rfl⟩
  have hbody : t.body.serialize = .ok (encMap l) := by
    show (t.body.ser >>= fun l => .ok (encMap l)) = _
    rw [hl]; rfl
  obtain ⟨sent, hsent⟩ : ∃ s, b1.tx.serialize = .ok s := serialize_of_body b1.tx l (by rw [r2]; exact hl)
  refine ⟨sent, encMap l, hsent, hbody, r2, fun w hw hk => ?_, ?_⟩
  · rw [e1]; exact e4 w hw hk
  · rw [C101_bytes_iff N pp st b1.tx r1 (r3 hp.noHash) sent hsent,
      rules_accepts N pp st b1.tx sent (encMap l) hsent (by rw [r2]; exact hbody)]
    refine and_iff_right ?_
    intro c hcm
    rw [r2] at hcm
    obtain ⟨_, _, _, _, hbm, -⟩ := ht
    obtain ⟨x, hx⟩ := bodyMeans_certs hbm c hcm
    exact certMeans_conforms x c hx (hc c hcm)

/-- So a witness for the encoding received, that does not fit the library's encoding, spoils what is sent on — unless the wallet holds its
key. -/
theorem C102_reencoded_rejected (E : Env) (N : Crypto) (pp : Params) (st : State) (k : Nat) (rb : Bytes) (hlen : rb.length < 2 ^ 63)
    (i : Item) (t : Tx) (hi : parse rb = some i) (ht : TxMeans i t) (hp : Plain t) (hc : ∀ c ∈ t.body.certificates, KeptCert c)
    (keys : List SKey) (hn : t.wits.vkeys.length + keys.length < 2 ^ 63) (body : Bytes) (hbody : t.body.serialize = .ok body)
    (w : VkeyWitness) (hw : w ∈ t.wits.vkeys) (hk : ∀ key ∈ keys, key.pub E ≠ .ok w.vkey)
    (hbad : N.verify w.vkey (N.bodyHash body) w.sig = false) (sent : Bytes) (hs : passOn E k rb keys = some sent) :
    ¬ AcceptsBytes N pp st sent := by
  obtain ⟨b0, h0, -, h⟩ := C102_foreign E N pp st k rb hlen i t hi ht hp hc keys hn
  unfold passOn at hs
  rw [h0] at hs
  obtain ⟨b1, h1, hs⟩ := Option.bind_eq_some_iff.mp hs
  obtain ⟨sent', body', g1, g2, -, g4, g5⟩ := h b1 h1
  rw [hbody] at g2
  obtain rfl := Out.ok.inj g2
  unfold bytesOf at hs
  rw [g1] at hs
  obtain rfl := Option.some.inj hs
  rw [g5]
  intro hr
  have := hr.witnesses.1 w (g4 w hw hk)
  rw [hbad] at this
  cases this

/-! ## Concrete cases -/

/-- A watch-only wallet prepares and balances the transaction of C91 and passes it on; the next wallet passes it on unsigned, the last one signs.
The bytes that come out are accepted. -/
example : ∃ b1 bytes sent, run toyWalletEnv 12 {} (toyOps ++ [.balance 1 true]) = some b1 ∧ b1.tx.serialize = .ok bytes ∧
    [[], [SKey.ed (List.replicate 32 7)]].foldlM (passOn toyWalletEnv 12) bytes = some sent ∧
    AcceptsBytes toyNetwork toyParams toyState sent := by
  obtain ⟨b2, sent, r1, r2, r3⟩ := toySent
  have h1 : (run toyWalletEnv 12 {} (toyOps ++ [.balance 1 true])).isSome = true := by
    cases h : run toyWalletEnv 12 {} (toyOps ++ [.balance 1 true]) with
    | some b => rfl
    | none =>
      have := run_append toyWalletEnv 12 (toyOps ++ [.balance 1 true]) [.sign (.ed (List.replicate 32 7))] {}
      rw [h, List.append_assoc, List.singleton_append, r1] at this
      cases this
  obtain ⟨b1, h1⟩ := Option.isSome_iff_exists.mp h1
  have hs : run toyWalletEnv 12 b1 ([SKey.ed (List.replicate 32 7)].map .sign) = some b2 := by
    have := run_append toyWalletEnv 12 (toyOps ++ [.balance 1 true]) [.sign (.ed (List.replicate 32 7))] {}
    rw [h1, List.append_assoc, List.singleton_append, r1] at this
    exact this.symm
  obtain ⟨ws, e, -⟩ := signs_wits _ _ _ _ _ hs
  obtain ⟨bytes, hb⟩ : ∃ bytes, b1.tx.serialize = .ok bytes := by
    rw [e] at r2
    exact serialize_withWitnesses (withWitnesses b1.tx ws) b1.tx.wits.vkeys sent r2
  refine ⟨b1, bytes, sent, h1, hb, ?_, r3⟩
  rw [C102_chain_partial toyWalletEnv 12 _ b1 h1 ?_ ?_ _ (by decide) bytes hb]
  · rw [show ([[], [SKey.ed (List.replicate 32 7)]] : List (List SKey)).flatten.map Op.sign = [.sign (.ed (List.replicate 32 7))] from rfl,
      List.append_assoc, List.singleton_append, r1, Option.bind_some, bytesOf, r2]
  · intro op hop
    simp only [toyOps, List.cons_append, List.nil_append, List.mem_cons, List.not_mem_nil, or_false] at hop
    rcases hop with rfl | rfl | rfl | rfl | rfl | rfl | rfl | rfl <;> simp [ArgsWF]
  · intro p d hp
    simp [toyOps] at hp

/-- A body in which the fee of 5 lovelace is written in three bytes. -/
def longBody : Bytes :=
  [0xa4, 0x00, 0x81, 0x82, 0x58, 0x20] ++ List.replicate 32 1 ++ [0x00, 0x01, 0x81, 0x82, 0x58, 0x1d, 0x61] ++ List.replicate 28 2 ++
    [0x1a, 0x00, 0x0f, 0x42, 0x40, 0x02, 0x19, 0x00, 0x05, 0x03, 0x19, 0x03, 0xe8]

/-- A transaction with this body and one witness. -/
def longBytes : Bytes :=
  [0x83] ++ longBody ++ ([0xa1, 0x00, 0x81, 0x82, 0x58, 0x20] ++ List.replicate 32 7 ++ [0x58, 0x40] ++ List.replicate 64 8) ++ [0xf6]

/-- The transaction it means. -/
def longTx : Tx where
  body := { inputs := [⟨List.replicate 32 1, 0⟩], outputs := [⟨0x61 :: List.replicate 28 2, 1000000⟩], fee := 5, ttl := 1000 }
  wits := { vkeys := [⟨List.replicate 32 7, List.replicate 64 8⟩] }

/-- A network where the witness is the signature of these bytes and of nothing else. -/
def longNetwork : Crypto := ⟨fun _ => List.replicate 28 9, id, fun _ m _ => m == longBody⟩

def longState : State := { toyState with utxo := fun i => if i = ⟨List.replicate 32 1, 0⟩ then some (0x61 :: List.replicate 28 9, 1000005) else none }

def longBodyItem : Item :=
  .map [.uint 0, .array [.array [.bstr (List.replicate 32 1), .uint 0]],
    .uint 1, .array [.array [.bstr (0x61 :: List.replicate 28 2), .uint 1000000]], .uint 2, .uint 5, .uint 3, .uint 1000]

def longWitsItem : Item := .map [.uint 0, .array [.array [.bstr (List.replicate 32 7), .bstr (List.replicate 64 8)]]]

theorem longTx_means : TxMeans (.array [longBodyItem, longWitsItem, .null]) longTx := by
  refine ⟨_, _, _, rfl, ⟨[(0, .array [.array [.bstr (List.replicate 32 1), .uint 0]]),
    (1, .array [.array [.bstr (0x61 :: List.replicate 28 2), .uint 1000000]]), (2, .uint 5), (3, .uint 1000)], rfl, by simp, by simp,
    ⟨[.array [.bstr (List.replicate 32 1), .uint 0]], by simp, by simp, List.pairwise_singleton _ _, ?_, ?_⟩,
    ⟨_, List.mem_cons_of_mem _ (List.mem_cons_self ..), _, rfl, .cons rfl .nil⟩, by simp [longTx], by simp [longTx], Or.inr ⟨by simp, rfl⟩,
    Or.inr ⟨by simp, rfl⟩, by simp [longTx], Or.inr ⟨by simp, rfl⟩⟩,
    ⟨[(0, .array [.array [.bstr (List.replicate 32 7), .bstr (List.replicate 64 8)]])], rfl, by simp, by simp,
      Or.inl ⟨_, List.mem_singleton_self _, _, rfl, .cons ⟨rfl, rfl, rfl⟩ .nil⟩, Or.inr ⟨by simp, rfl⟩, Or.inr ⟨by simp, rfl⟩⟩, by simp [longTx]⟩
  · intro x hx; rw [List.mem_singleton] at hx; subst hx; exact ⟨_, List.mem_singleton_self _, rfl, rfl⟩
  · intro x hx
    obtain rfl := List.mem_singleton.mp hx
    exact ⟨_, List.mem_singleton_self _, rfl, rfl⟩

theorem encodes_of_parse {i : Item} {b : Bytes} {f : Nat} (h : parseF f b = some (i, [])) : Encodes i b := by
  obtain ⟨p, e, hp⟩ := (parseF_encodes f).1 _ _ _ h
  rw [List.append_nil] at e
  rwa [e]

set_option maxRecDepth 50000 in
theorem longBytes_items : ThreeItems longBytes longBodyItem longWitsItem .null longBody where
  split := ⟨[0x83], _, [0xf6], rfl, .short (by decide) rfl, encodes_of_parse (f := 50) rfl, .null⟩
  body := encodes_of_parse (f := 50) rfl

/-- The network accepts these bytes; but a wallet that loads them and sends them on, without a signature of its own, sends bytes that the network
refuses. -/
theorem C102_reencoding_example (E : Env) (k : Nat) :
    AcceptsBytes longNetwork ⟨0, 0, 0, 0, 0, 300⟩ longState longBytes ∧
    ∃ sent, passOn E k longBytes [] = some sent ∧ ¬ AcceptsBytes longNetwork ⟨0, 0, 0, 0, 0, 300⟩ longState sent := by
  have hpl : Plain longTx := ⟨rfl, rfl, rfl, rfl, rfl⟩
  have hparse : parse longBytes = some (.array [longBodyItem, longWitsItem, .null]) := by
    set_option maxRecDepth 50000 in rfl
  refine ⟨⟨_, _, _, _, longTx, longBytes_items, longTx_means, hpl, ?_⟩, ?_⟩
  · refine ⟨by decide, by decide, ?_, by decide, by decide +kernel, by decide, by decide +kernel, by decide +kernel, by decide +kernel, ?_, ?_⟩
    · intro i hi
      obtain rfl := List.mem_singleton.mp hi
      exact ⟨0x61 :: List.replicate 28 9, 1000005, by decide +kernel, by decide +kernel⟩
    · decide +kernel
    · decide +kernel
  · obtain ⟨b0, h0, e0, h⟩ := C102_foreign E longNetwork ⟨0, 0, 0, 0, 0, 300⟩ longState k longBytes (by decide +kernel) _ longTx hparse
      longTx_means hpl (by simp [longTx]) [] (by decide)
    obtain ⟨sent, body, g1, g2, -, -, -⟩ := h b0 rfl
    have hs : passOn E k longBytes [] = some sent := by
      unfold passOn; rw [h0]
      show bytesOf b0.tx = some sent
      unfold bytesOf; rw [g1]
    refine ⟨sent, hs, ?_⟩
    refine C102_reencoded_rejected E longNetwork _ longState k longBytes (by decide +kernel) _ longTx hparse longTx_means hpl (by simp [longTx]) []
      (by decide) body g2 ⟨List.replicate 32 7, List.replicate 64 8⟩ (by decide) (by simp) ?_ sent hs
    have : longTx.body.serialize ≠ .ok longBody := by decide +kernel
    show (body == longBody) = false
    rw [g2] at this
    simp only [ne_eq, Out.ok.injEq] at this
    simpa using this

end Cardano.TxBuilder
