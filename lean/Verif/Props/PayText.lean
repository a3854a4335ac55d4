import Verif.Spec.PayText
import Verif.Props.Wire
import Verif.Props.BabbageWire
import Verif.Props.LedgerEffect
import Verif.Props.WalletKeys

/-! # C104: money sent to the text of an address arrives at its owner -/

namespace Cardano.Address

open Cardano Cardano.Bip173 Cardano.Cip19 Cardano.Spec.PayText Cardano.Spec.LedgerRules

theorem decode_isString {s hrp data : Bytes} : Bech32.decode s = .ok (hrp, data) ↔ IsString s hrp data := (Bech32.C61_bip173 s hrp data).1

theorem base_names {s : Bytes} {a : Base} (h : Base.fromBech32 s = .ok a) : NamesAddress s a.toBytes := by
  obtain ⟨hrp, hd⟩ := base_decoded_bytes h
  obtain ⟨hrp', x, rest, hd', h1, h2⟩ := (base_accepts s).mp ⟨a, h⟩
  rw [hd] at hd'
  obtain ⟨rfl, e⟩ := Prod.mk.inj (Out.ok.inj hd')
  exact ⟨hrp, x, rest, decode_isString.mp hd, e, .inl ⟨h2, h1⟩⟩

theorem enterprise_names {s : Bytes} {a : Single} (h : enterpriseFromBech32 s = .ok a) : NamesAddress s a.toBytes := by
  obtain ⟨hrp, hd⟩ := single_decoded_bytes h
  obtain ⟨hrp', x, rest, hd', h1, h2⟩ := (C11_classes_exclusive s).2.1.mp ⟨a, h⟩
  rw [hd] at hd'
  obtain ⟨rfl, e⟩ := Prod.mk.inj (Out.ok.inj hd')
  exact ⟨hrp, x, rest, decode_isString.mp hd, e, .inr ⟨h2, h1⟩⟩

theorem names_unique {s a a' : Bytes} (h : NamesAddress s a) (h' : NamesAddress s a') : a = a' := by
  obtain ⟨p, x, r, h1, -⟩ := h
  obtain ⟨p', x', r', h1', -⟩ := h'
  have e := decode_isString.mpr h1
  rw [decode_isString.mpr h1'] at e
  exact (Prod.mk.inj (Out.ok.inj e)).2.symm

/-- **C104** (the text decides).  A text can be paid to — one of the two address classes reads it — exactly when it names an address according to
BIP-173 and CIP-19.  It then names only one, only one class reads it, and the call asks for a payment to exactly this address. -/
theorem C104_text_names (s : Bytes) (n : Nat) :
    ((∃ op, PaysText s n op) ↔ ∃ addr, NamesAddress s addr) ∧
    (∀ addr addr', NamesAddress s addr → NamesAddress s addr' → addr = addr') ∧
    (∀ op op', PaysText s n op → PaysText s n op' → op = op') ∧
    (∀ op addr ops, PaysText s n op → NamesAddress s addr →
      Spec.TxBuilder.outputsOf (op :: ops) = ⟨addr, n⟩ :: Spec.TxBuilder.outputsOf ops) ∧
    ∀ op addr ops, PaysTextBabbage s n op → NamesAddress s addr → ∃ pre,
      Spec.BabbageBuilder.outputsOf (op :: ops) = Spec.BabbageBuilder.payment addr n pre :: Spec.BabbageBuilder.outputsOf ops := by
  obtain ⟨c1, c2, -, c4, c5, -⟩ := C11_classes_exclusive s
  refine ⟨⟨?_, ?_⟩, fun _ _ => names_unique, ?_, ?_, ?_⟩
  · rintro ⟨op, ⟨a, h⟩ | ⟨a, h⟩⟩
    · exact ⟨_, base_names h⟩
    · exact ⟨_, enterprise_names h⟩
  · rintro ⟨addr, hrp, x, rest, h1, rfl, ⟨h2, h3⟩ | ⟨h2, h3⟩⟩
    · obtain ⟨a, ha⟩ := c1.mpr ⟨hrp, x, rest, decode_isString.mpr h1, h3, h2⟩
      exact ⟨_, .base a ha⟩
    · obtain ⟨a, ha⟩ := c2.mpr ⟨hrp, x, rest, decode_isString.mpr h1, h3, h2⟩
      exact ⟨_, .enterprise a ha⟩
  · rintro op op' (⟨a, h⟩ | ⟨a, h⟩) (⟨a', h'⟩ | ⟨a', h'⟩)
    · rw [h] at h'; rw [Out.ok.inj h']
    · have := (c4 (by rw [h]; rfl)).1; rw [h'] at this; cases this
    · have := (c5 (by rw [h]; rfl)).1; rw [h'] at this; cases this
    · rw [h] at h'; rw [Out.ok.inj h']
  · rintro op addr ops (⟨a, h⟩ | ⟨a, h⟩) hn
    · rw [names_unique hn (base_names h)]; rfl
    · rw [names_unique hn (enterprise_names h)]; rfl
  · rintro op addr ops (⟨a, pre, h⟩ | ⟨a, pre, h⟩) hn
    · rw [names_unique hn (base_names h)]; exact ⟨pre, rfl⟩
    · rw [names_unique hn (enterprise_names h)]; exact ⟨pre, rfl⟩

/-- **C104** (the owner's text).  The text a wallet shows for its keys names an address whose payments need, according to the
network, exactly the wallet's payment key, and which is on the wallet's network. -/
theorem C104_owner_text (H : Bytes → Bytes) (hH : ∀ x, (H x).length = 28) (nid : NetworkID) (pmt stk : Bip32.Pub) (s : Bytes)
    (h : (Base.fromKeys H nid pmt stk).toBech32 = .ok s ∨ enterpriseToBech32 (enterpriseFromKey H nid pmt) = .ok s) :
    ∃ addr, NamesAddress s addr ∧ paymentKey addr = some (H pmt.key) ∧ networkOf addr = some (networkNumber nid) := by
  obtain ⟨⟨-, -, p1, n1, s1, e1, -, r1⟩, ⟨-, -, p2, n2, s2, e2, -, r2⟩, -⟩ := C90_address_of_keys H hH nid pmt stk
  rcases h with h | h
  · obtain rfl : s1 = s := Out.ok.inj (e1.symm.trans h)
    exact ⟨_, base_names r1, p1, n1⟩
  · obtain rfl : s2 = s := Out.ok.inj (e2.symm.trans h)
    exact ⟨_, enterprise_names r2, p2, n2⟩

end Cardano.Address

namespace Cardano.TxBuilder

open Cardano Cardano.Ledger Cardano.Cbor Cardano.Address Cardano.Spec.Ledger Cardano.Spec.TxBuilder Cardano.Spec.LedgerRules Cardano.Spec.Wallet
  Cardano.Spec.Wire Cardano.Spec.PayText

theorem outputsOf_append (ops ops' : List Op) : outputsOf (ops ++ ops') = outputsOf ops ++ outputsOf ops' := by
  induction ops with
  | nil => rfl
  | cons op ops ih => cases op <;> simp only [List.cons_append, outputsOf, ih]

theorem utxoAfter_written (u : TxIn → Option (Bytes × Nat)) (id : Bytes) (t : Tx) :
    utxoAfter u id (txWritten t).body = utxoAfter u id t.body := rfl

/-- **C104** (the bytes decide).  After any calls on a new builder: when the network takes the serialized bytes — which it does exactly when it
accepts them — it spends the inputs and creates the outputs of the transaction in the builder, at the id the builder shows. -/
theorem C104_bytes_leave (E : Env) (N : Crypto) (hN : N.bodyHash = E.S.hash) (pp : Params) (st : State) (k : Nat) (ops : List Op) (b : Builder)
    (h : run E k {} ops = some b) (ha : ∀ op ∈ ops, ArgsWF op) (hn : ops.length < 2 ^ 62) (bytes : Bytes) (hb : b.tx.serialize = .ok bytes)
    (u : TxIn → Option (Bytes × Nat)) :
    Leaves N pp st bytes u ↔ AcceptsBytes N pp st bytes ∧ ∃ id, getID E b = .ok id ∧ u = utxoAfter st.utxo id b.tx.body := by
  obtain ⟨hr, hp, -⟩ := C101_builder_iff E N pp st k ops b h ha hn
  obtain ⟨l, body, hl, hbody, h3⟩ := threeItems_serialize b.tx hr hp.noMetadata bytes hb
  obtain ⟨i, hi, m1, m2⟩ := C99_written b.tx hr bytes [] hb
  have hi' : i = .array [.map l, .map b.tx.wits.ser, .null] := by
    have hlt : b.tx.ser = .ok [.map l, .map b.tx.wits.ser, .null] := by
      unfold Tx.ser; rw [hl, hp.noMetadata]; rfl
    have := hb
    unfold Tx.serialize at this
    rw [hlt] at this
    obtain rfl := Out.ok.inj this
    have := parse_enc_append _ (tx_wf b.tx hr _ hlt) []
    rw [show enc (.array [.map l, .map b.tx.wits.ser, .null]) = encArray [.map l, .map b.tx.wits.ser, .null] from rfl, hi] at this
    exact Option.some.inj this
  have hid : getID E b = .ok (E.S.hash body) := by unfold getID; rw [hbody]; rfl
  have key : ∀ b' w' m' body' t', ThreeItems bytes b' w' m' body' → TxMeans (.array [b', w', m']) t' →
      body' = body ∧ t' = txWritten b.tx := by
    intro b' w' m' body' t' g1 g2
    obtain ⟨rfl, rfl, rfl, rfl⟩ := threeItems_unique g1 h3
    rw [← hi'] at g2
    by_cases hwr : Writable b.tx
    · exact ⟨rfl, ((C99_grammar _).2 _ _ (m1 hwr) g2).symm⟩
    · exact absurd g2 (m2 hwr t')
  constructor
  · rintro ⟨b', w', m', body', t', g1, g2, g3, g4, rfl⟩
    obtain ⟨rfl, rfl⟩ := key _ _ _ _ _ g1 g2
    exact ⟨⟨_, _, _, _, _, g1, g2, g3, g4⟩, _, hid, by rw [hN, utxoAfter_written]⟩
  · rintro ⟨⟨b', w', m', body', t', g1, g2, g3, g4⟩, id, hid', rfl⟩
    obtain ⟨rfl, rfl⟩ := key _ _ _ _ _ g1 g2
    obtain rfl := Out.ok.inj (hid.symm.trans hid')
    exact ⟨_, _, _, _, _, g1, g2, g3, g4, by rw [hN, utxoAfter_written]⟩

theorem pays_position {pre post : List Op} {op : Op} {s addr : Bytes} {n : Nat} (hp : PaysText s n op) (hs : NamesAddress s addr) :
    (outputsOf (pre ++ op :: post))[(outputsOf pre).length]? = some ⟨addr, n⟩ := by
  rw [outputsOf_append, (C104_text_names s n).2.2.2.1 op addr post hp hs]
  simp

/-- **C104** (a transaction put together by hand).  Take any history without `balance` and fee calculations.  If the network takes the bytes,
then every payment to a text is, at the id the builder shows and at its position among the payments, an unspent output with the amount and the
address the text names. -/
theorem C104_arrives (E : Env) (N : Crypto) (hN : N.bodyHash = E.S.hash) (pp : Params) (st : State) (k : Nat) (pre post : List Op) (op : Op)
    (b : Builder) (h : run E k {} (pre ++ op :: post) = some b) (hc : NoComputedFee (pre ++ op :: post))
    (ha : ∀ op' ∈ pre ++ op :: post, ArgsWF op') (hn : (pre ++ op :: post).length < 2 ^ 62) (bytes : Bytes) (hb : b.tx.serialize = .ok bytes)
    (u : TxIn → Option (Bytes × Nat)) (hu : Leaves N pp st bytes u) (s addr : Bytes) (n : Nat) (hp : PaysText s n op)
    (hs : NamesAddress s addr) :
    ∃ id, getID E b = .ok id ∧ u ⟨id, (outputsOf pre).length⟩ = some (addr, n) := by
  obtain ⟨-, id, hid, rfl⟩ := (C104_bytes_leave E N hN pp st k _ b h ha hn bytes hb u).mp hu
  refine ⟨id, hid, ?_⟩
  obtain ⟨-, -, -, -, -, -, -, -, ho⟩ := run_facts E k _ {} b h
  obtain ⟨ho, -⟩ := ho hc
  rw [show ({} : Builder).tx.body.outputs = [] from rfl, List.nil_append] at ho
  simp [utxoAfter, ho, pays_position hp hs]

/-- **C104** (a balanced transaction).  Under the conditions of C97 the network takes the serialized bytes, and then every payment to a text is an
unspent output with the full amount and the address the text names; and if the text is the one that some wallet shows for its
keys, then the wallet's payment key is the one that can spend it. -/
theorem C104_balanced_arrives (E : Env) (N : Crypto) (hN : SameCrypto E N) (pp : Params) (sp : StakeParams) (L : State2) (hL : L.Consistent)
    (k : Nat) (ops : List Op) (keys : List SKey) (b0 : Builder) (h0 : run E k {} ops = some b0)
    (hc : PreparedFor (Holds E N keys) pp L.st ops) (hcount : CountedRight pp L.st ops b0.tx.body) (hk : 12 ≤ k) (hB : 2 ^ 16 ≤ pp.minFeeB) (hmin : pp.minUtxo ≤ 1000000)
    (hfit : minFee pp.minFeeA pp.minFeeB (pp.maxTxSize + 8) < 2 ^ 31)
    (ws : List VkeyWitness) (hl : ws.length = keys.length) (hws : ∀ w ∈ ws, WitnessSized w)
    (hmax : ∀ s, TxSize (withWitnesses (addOutput b0 b0.changeAddr (2 ^ 63 - 1)).tx ws) s → s + 12 ≤ pp.maxTxSize)
    (f s : Nat) (hs : TxSize (withFee (withWitnesses b0.tx ws) f) s) (hf : f = minFee pp.minFeeA pp.minFeeB s)
    (hfunds : depositSum ops + f + outputSum (outputsOf ops) ≤ addedSum ops)
    (hsign : ∀ b1 id, balance k b0 keys.length true = some (b1, .ok ()) → getID E b1 = .ok id →
      ∀ key ∈ keys, CanSign E id key)
    (stake' : Stake) (hstake : Delegs sp L.stake (withdrawalsOf ops) ((certsOf ops).map (·.1)) stake')
    (hfresh : ∀ b2 id, run E k {} (ops ++ .balance keys.length true :: keys.map .sign) = some b2 → getID E b2 = .ok id →
      ∀ ix, L.st.utxo ⟨id, ix⟩ = none)
    (ha : ∀ op ∈ ops, ArgsWF op) (hkw : ∀ key ∈ keys, KeyWF key) (hlen : ops.length + keys.length < 2 ^ 61)
    (hpools : ∀ p d, Op.poolRegistration p d ∈ ops → PoolWritable p) :
    ∃ b2 bytes id u, run E k {} (ops ++ .balance keys.length true :: keys.map .sign) = some b2 ∧ b2.tx.serialize = .ok bytes ∧
      getID E b2 = .ok id ∧ Leaves N pp L.st bytes u ∧
      ∀ pre op post text n, ops = pre ++ op :: post → PaysText text n op →
        (∀ addr, NamesAddress text addr → u ⟨id, (outputsOf pre).length⟩ = some (addr, n)) ∧
        ∀ nid pmt stk, (∀ x, (N.keyHash x).length = 28) →
          (Base.fromKeys N.keyHash nid pmt stk).toBech32 = .ok text ∨ enterpriseToBech32 (enterpriseFromKey N.keyHash nid pmt) = .ok text →
          ∃ addr, u ⟨id, (outputsOf pre).length⟩ = some (addr, n) ∧ paymentKey addr = some (N.keyHash pmt.key) := by
  obtain ⟨b2, id, L', change, r1, r2, -, r4, -, r6, -⟩ := C97_takes_effect E N hN pp sp L hL k ops keys b0 h0 hc hcount hk hB hmin hfit ws hl hws
    hmax f s hs hf hfunds hsign stake' hstake hfresh
  obtain ⟨sz, ⟨bytes, hb, -⟩, -⟩ := r4.accepted.size
  have ha' : ∀ op ∈ ops ++ .balance keys.length true :: keys.map .sign, ArgsWF op := by
    intro op hop
    rcases List.mem_append.mp hop with hop | hop
    · exact ha op hop
    · rcases List.mem_cons.mp hop with rfl | hop
      · trivial
      · obtain ⟨key, hkey, rfl⟩ := List.mem_map.mp hop
        exact hkw key hkey
  have hl' : (ops ++ Op.balance keys.length true :: keys.map Op.sign).length < 2 ^ 62 := by simp; omega
  have hacc : AcceptsBytes N pp L.st bytes := by
    refine ((C101_builder_iff E N pp L.st k _ b2 r1 ha' hl').2.2 bytes hb).mpr ⟨?_, r4.accepted⟩
    intro p d hp
    rcases List.mem_append.mp hp with hp | hp
    · exact hpools p d hp
    · simp at hp
  obtain ⟨body, hbody, hu⟩ := r4.utxo
  have hid : getID E b2 = .ok (N.bodyHash body) := by rw [hN.hash]; unfold getID; rw [hbody]; rfl
  obtain rfl := Out.ok.inj (hid.symm.trans r2)
  refine ⟨b2, bytes, _, L'.st.utxo, r1, hb, hid,
    (C104_bytes_leave E N hN.hash pp L.st k _ b2 r1 ha' hl' bytes hb _).mpr ⟨hacc, _, hid, hu⟩, ?_⟩
  intro pre op post text n ho hp
  have main : ∀ addr, NamesAddress text addr → L'.st.utxo ⟨N.bodyHash body, (outputsOf pre).length⟩ = some (addr, n) := by
    intro addr hn
    exact r6 _ ⟨addr, n⟩ (by rw [ho]; exact pays_position hp hn)
  refine ⟨main, ?_⟩
  intro nid pmt stk hH ht
  obtain ⟨addr, hn, hpk, -⟩ := C104_owner_text N.keyHash hH nid pmt stk text ht
  exact ⟨addr, main addr hn, hpk⟩

/-- **C104** (wrong network).  A payment to a text that names an address of another network is never made: as long as no `balance` has
removed it, the network does not accept the bytes. -/
theorem C104_wrong_network (E : Env) (N : Crypto) (pp : Params) (st : State) (k : Nat) (pre post : List Op) (op : Op)
    (b : Builder) (h : run E k {} (pre ++ op :: post) = some b) (hc : NoComputedFee (pre ++ op :: post))
    (ha : ∀ op' ∈ pre ++ op :: post, ArgsWF op') (hn : (pre ++ op :: post).length < 2 ^ 62) (bytes : Bytes) (hb : b.tx.serialize = .ok bytes)
    (s addr : Bytes) (n : Nat) (hp : PaysText s n op) (hs : NamesAddress s addr) (hw : networkOf addr ≠ some st.network) :
    ¬ AcceptsBytes N pp st bytes := by
  intro hacc
  have hacc := (((C101_builder_iff E N pp st k _ b h ha hn).2.2 bytes hb).mp hacc).2
  obtain ⟨-, -, -, -, -, -, -, -, ho⟩ := run_facts E k _ {} b h
  obtain ⟨ho, -⟩ := ho hc
  rw [show ({} : Builder).tx.body.outputs = [] from rfl, List.nil_append] at ho
  have := hacc.network.1 ⟨addr, n⟩ (by rw [ho]; exact List.mem_of_getElem? (pays_position hp hs))
  exact hw this

/-! ### Concrete cases -/

/-- The text of the address that the toy wallets pay. -/
theorem toyText : ∃ text, enterpriseFromBech32 text = .ok ⟨0x61, List.replicate 28 2⟩ ∧ NamesAddress text (0x61 :: List.replicate 28 2) := by
  obtain ⟨s, -, d⟩ := C10_enterprise_roundtrip .mainnet (List.replicate 28 2) (by decide)
  have d : enterpriseFromBech32 s = .ok ⟨0x61, List.replicate 28 2⟩ := d
  exact ⟨s, d, enterprise_names d⟩

/-- The transaction of C91 put together by hand, without `balance`. -/
def toyHand : List Op :=
  [.addInput ⟨List.replicate 32 1, 0, 10000000⟩, .addWithdrawal ⟨0xE1, List.replicate 28 9⟩ 500000,
    .stakeRegistration ⟨0xE1, List.replicate 28 9⟩ 2000000, .stakeDelegation ⟨0xE1, List.replicate 28 9⟩ (List.replicate 28 4)] ++
  .addOutputEnterprise ⟨0x61, List.replicate 28 2⟩ 5000000 ::
  [.addOutputEnterprise ⟨0x61, List.replicate 28 9⟩ 3328383, .setTtl 1000, .setFee 171617, .sign (.ed (List.replicate 32 7))]

theorem sign_same_tx (E : Env) (k : Nat) (b b' : Builder) (key : SKey) (h : b.tx = b'.tx) :
    (run E k b [.sign key]).map (·.tx) = (run E k b' [.sign key]).map (·.tx) := by
  have e : witnessFor E b key = witnessFor E b' key := by unfold witnessFor makeWitness getID; rw [h]
  simp only [run, step, sign, e]
  cases witnessFor E b' key with
  | ok p => simp [h]
  | throw _ => simp [h]
  | ub => rfl

theorem plain_ext {t t' : Tx} (p2 : Plain t) (p1 : Plain t') (e1 : t.body = t'.body) (e2 : t.wits.vkeys = t'.wits.vkeys) : t = t' := by
  obtain ⟨body, ⟨vk, ms, bs⟩, md⟩ := t
  obtain ⟨body', ⟨vk', ms', bs'⟩, md'⟩ := t'
  have a1 : ms = [] := p2.noScripts
  have a2 : bs = [] := p2.noBootstrap
  have a3 : md = false := p2.noMetadata
  have a4 : ms' = [] := p1.noScripts
  have a5 : bs' = [] := p1.noBootstrap
  have a6 : md' = false := p1.noMetadata
  have e1 : body = body' := e1
  have e2 : vk = vk' := e2
  subst a1 a2 a3 a4 a5 a6 e1 e2
  rfl

/-- The hypotheses of `C104_arrives` and `C104_bytes_leave` are met: the network takes the bytes, and the payment to the text arrives. -/
example : ∃ b bytes text id u, run toyWalletEnv 12 {} toyHand = some b ∧ b.tx.serialize = .ok bytes ∧ Leaves toyNetwork toyParams toyState bytes u ∧
    NamesAddress text (0x61 :: List.replicate 28 2) ∧ u ⟨id, 0⟩ = some (0x61 :: List.replicate 28 2, 5000000) := by
  have hrun : run toyWalletEnv 12 {} toyHand = some ((run toyWalletEnv 12 {} toyHand).getD {}) := rfl
  obtain ⟨b2, bytes, r1, r2, r3⟩ := toySent
  have htx : ((run toyWalletEnv 12 {} toyHand).getD {}).tx = b2.tx := by
    have hsame : (run toyWalletEnv 12 {} (toyOps ++ [.balance 1 true])).map (fun b => (b.tx.body, b.tx.wits.vkeys)) =
        (run toyWalletEnv 12 {} (toyHand.take 8)).map (fun b => (b.tx.body, b.tx.wits.vkeys)) := by decide +kernel
    obtain ⟨a, ha⟩ : ∃ a, run toyWalletEnv 12 {} (toyHand.take 8) = some a := ⟨_, rfl⟩
    rw [ha] at hsame
    obtain ⟨c, hc, e⟩ := Option.map_eq_some_iff.mp hsame
    have p1 := plain_run toyWalletEnv 12 _ {} _ ⟨rfl, rfl, rfl, rfl, rfl⟩ ha
    have p2 := plain_run toyWalletEnv 12 _ {} _ ⟨rfl, rfl, rfl, rfl, rfl⟩ hc
    have e' : a.tx = c.tx := plain_ext p1 p2 (congrArg Prod.fst e).symm (congrArg Prod.snd e).symm
    have f1 := sign_same_tx toyWalletEnv 12 a c (.ed (List.replicate 32 7)) e'
    have g1 : run toyWalletEnv 12 {} toyHand = run toyWalletEnv 12 a [.sign (.ed (List.replicate 32 7))] := by
      rw [show toyHand = toyHand.take 8 ++ [.sign (.ed (List.replicate 32 7))] from rfl, run_append, ha]
    have g2 : some b2 = run toyWalletEnv 12 c [.sign (.ed (List.replicate 32 7))] := by
      rw [← r1, show toyOps ++ [.balance 1 true, .sign (.ed (List.replicate 32 7))] =
        (toyOps ++ [.balance 1 true]) ++ [.sign (.ed (List.replicate 32 7))] by simp, run_append, hc]
    rw [← g1, ← g2, hrun] at f1
    exact Option.some.inj f1
  have hb := (congrArg Tx.serialize htx).trans r2
  have hargs : ∀ op ∈ toyHand, ArgsWF op := by
    intro op hop
    simp only [toyHand, List.cons_append, List.nil_append, List.mem_cons, List.not_mem_nil, or_false] at hop
    rcases hop with rfl | rfl | rfl | rfl | rfl | rfl | rfl | rfl | rfl <;> simp [ArgsWF, KeyWF]
  have hnc : NoComputedFee toyHand := by
    intro op hop
    simp only [toyHand, List.cons_append, List.nil_append, List.mem_cons, List.not_mem_nil, or_false] at hop
    rcases hop with rfl | rfl | rfl | rfl | rfl | rfl | rfl | rfl | rfl <;> simp
  obtain ⟨text, t1, t2⟩ := toyText
  have hid : ∃ id, getID toyWalletEnv ((run toyWalletEnv 12 {} toyHand).getD {}) = .ok id := by
    have : (getID toyWalletEnv ((run toyWalletEnv 12 {} toyHand).getD {})).isOk = true := by decide +kernel
    revert this
    cases getID toyWalletEnv ((run toyWalletEnv 12 {} toyHand).getD {}) with
    | ok id => exact fun _ => ⟨id, rfl⟩
    | throw _ => intro h; cases h
    | ub => intro h; cases h
  obtain ⟨id, hid⟩ := hid
  have hl := (C104_bytes_leave toyWalletEnv toyNetwork rfl toyParams toyState 12 toyHand _ hrun hargs (by decide) bytes hb _).mpr ⟨r3, id, hid, rfl⟩
  obtain ⟨id', -, hu⟩ := C104_arrives toyWalletEnv toyNetwork rfl toyParams toyState 12 _ _ _ _ hrun hnc hargs (by decide) bytes hb _ hl text _ 5000000
    (.enterprise _ t1) t2
  exact ⟨_, bytes, text, id', _, hrun, hb, hl, t2, hu⟩

/-- The hypotheses of `C104_balanced_arrives` are met by the wallet of C97. -/
example : ∃ b2 bytes id u text, run toyWalletEnv 12 {} (toyOps2 ++ .balance 1 true :: toyKeys.map .sign) = some b2 ∧ b2.tx.serialize = .ok bytes ∧
    Leaves toyNetwork toyParams toyLedger.st bytes u ∧ NamesAddress text (0x61 :: List.replicate 28 2) ∧
    u ⟨id, 0⟩ = some (0x61 :: List.replicate 28 2, 5000000) := by
  have h0 : run toyWalletEnv 12 {} toyOps2 = some toyBuilder2 := rfl
  obtain ⟨stake', hst⟩ := toyDelegs
  obtain ⟨text, t1, t2⟩ := toyText
  obtain ⟨b2, bytes, id, u, r1, r2, -, r4, r5⟩ := C104_balanced_arrives toyWalletEnv toyNetwork (sameCrypto_sodium _ _ _ _ _) toyParams
    ⟨208, 18, 340000000⟩ toyLedger (by intro p; simp only [toyLedger, List.mem_singleton]; split <;> rename_i h <;> simp only [h] <;> simp) 12
    toyOps2 toyKeys toyBuilder2 h0 toyCareful2.toPreparedFor
    (careful_counted toyWalletEnv _ toyParams toyLedger.st 12 toyOps2 toyBuilder2 h0 toyCareful2) (by decide) (by decide) (by decide) (by decide)
    [⟨List.replicate 32 0, List.replicate 64 0⟩] rfl (by simp [WitnessSized]) (by
      intro s hs
      rw [txSize_iff'] at hs
      have : sizeWithFee (withWitnesses (addOutput toyBuilder2 toyBuilder2.changeAddr (2 ^ 63 - 1)).tx
        [⟨List.replicate 32 0, List.replicate 64 0⟩]) 0 = .ok 369 := by decide +kernel
      have hs' : sizeWithFee _ 0 = .ok s := hs
      rw [this] at hs'
      rw [← Out.ok.inj hs']; decide) 169989 332 (by rw [txSize_iff]; decide +kernel) (by decide +kernel) (by decide +kernel)
    (by
      intro b1 id _ _ key hk
      obtain rfl := List.mem_singleton.mp hk
      refine ⟨by decide, ?_⟩
      intro h
      have h : Ed.ellL ∣ leNat (1 :: List.replicate 63 0) := h
      rw [show leNat (1 :: List.replicate 63 0) = 1 by decide +kernel] at h
      exact absurd (Nat.le_of_dvd (by decide) h) (by decide +kernel))
    stake' hst (by
      intro b2 id h1 h2 ix
      have ht := toyId
      rw [show (1 : Nat) = toyKeys.length from rfl, h1] at ht
      simp only [Option.map_some, Option.some.injEq, Bool.and_eq_true, decide_eq_true_eq, h2] at ht
      have hne : id ≠ List.replicate 32 1 := fun e => ht.2 (by rw [e])
      show (if (⟨id, ix⟩ : TxIn) = ⟨List.replicate 32 1, 0⟩ then _ else none) = none
      rw [if_neg]
      intro e
      rw [TxIn.mk.injEq] at e
      exact hne e.1)
    (by
      intro op hop
      simp only [toyOps2, List.mem_cons, List.not_mem_nil, or_false] at hop
      rcases hop with rfl | rfl | rfl | rfl | rfl | rfl | rfl <;> simp [ArgsWF])
    (by
      intro key hk
      obtain rfl := List.mem_singleton.mp hk
      simp [KeyWF])
    (by decide) (by intro p d hp; simp [toyOps2] at hp)
  have := (r5 (toyOps2.take 4) _ (toyOps2.drop 5) text 5000000 rfl (.enterprise _ t1)).1 _ t2
  exact ⟨b2, bytes, id, u, text, r1, r2, r4, t2, this⟩

end Cardano.TxBuilder

namespace Cardano.BabbageBuilder

open Cardano Cardano.Ledger Cardano.Cbor Cardano.Address Cardano.Spec.Ledger Cardano.Spec.BabbageBuilder Cardano.Spec.BabbageRules
  Cardano.Spec.BabbageWire Cardano.Spec.PayText
open Cardano.TxBuilder (Env)
open Cardano.Spec.LedgerRules (Crypto State paymentKey networkOf)

theorem utxoAfter_written (u : TxIn → Option (Bytes × Nat)) (id : Bytes) (t : Babbage.Tx) :
    utxoAfterBabbage u id (babbageWritten t).body = utxoAfterBabbage u id t.body := by
  funext i
  unfold utxoAfterBabbage
  have e : (if i.txId = id then (babbageWritten t).body.outputs[i.index]? else none) =
      (if i.txId = id then t.body.outputs[i.index]? else none).map babbageOutWritten := by
    split
    · exact List.getElem?_map
    · rfl
  rw [e]
  cases (if i.txId = id then t.body.outputs[i.index]? else none) with
  | none => rfl
  | some o => simp only [Option.map_some, addressOf_written, amountOf_written]

/-- **C104** (Babbage, the bytes decide).  After any calls on a new Babbage builder: when the network takes the serialized bytes, it spends the inputs
and creates the outputs of the transaction in the builder, at the id the builder shows. -/
theorem C104_babbage_leave (E : Env) (N : Crypto) (hN : N.bodyHash = E.S.hash) (pp : Params) (st : State) (k : Nat) (ops : List Op) (b : Builder)
    (h : run E k {} ops = some b) (ha : ∀ op ∈ ops, ArgsWF op) (hl : ops.length < 2 ^ 60) (u : TxIn → Option (Bytes × Nat)) :
    LeavesBabbage N pp st (serialize b) u ↔ AcceptsBytes N pp st (serialize b) ∧ u = utxoAfterBabbage st.utxo (getID E b) b.tx.body := by
  have hlen := run_vkeys_length E k ops {} b h
  have hr := run_rep E k ops b h ha hl
  have hf : Fits b.tx.wits.vkeys := by unfold Fits; simp only [List.length_nil] at hlen; omega
  have hw : ∀ v ∈ b.tx.wits.vkeys, VkeyRep v := fun w hw => (C76_witnesses_valid E k b ops h (fun key e => ha _ e) w hw).1
  have h4 := fourItems_written b.tx hr hf hw
  have hm : BabbageTxMeans (.array [.map b.tx.body.ser, .map b.tx.wits.ser, .bool b.tx.flag, .null]) (babbageWritten b.tx) :=
    ⟨_, _, rfl, Babbage.babbage_body_written b.tx.body hr, Babbage.babbage_wits_written b.tx.wits hw⟩
  have key : ∀ b' w' f' body' t', FourItems (serialize b) b' w' f' body' → BabbageTxMeans (.array [b', w', .bool f', .null]) t' →
      body' = b.tx.body.serialize ∧ t' = babbageWritten b.tx := by
    intro b' w' f' body' t' g1 g2
    obtain ⟨rfl, rfl, rfl, rfl⟩ := fourItems_unique g1 h4
    exact ⟨rfl, Babbage.C100_unique _ _ _ g2 hm⟩
  constructor
  · rintro ⟨b', w', f', body', outs, t', g1, g2, g3, g4, g5, rfl⟩
    obtain ⟨rfl, rfl⟩ := key _ _ _ _ _ g1 g2
    exact ⟨⟨_, _, _, _, _, _, g1, g2, g3, g4, g5⟩, by rw [hN, utxoAfter_written]; rfl⟩
  · rintro ⟨⟨b', w', f', body', outs, t', g1, g2, g3, g4, g5⟩, rfl⟩
    obtain ⟨rfl, rfl⟩ := key _ _ _ _ _ g1 g2
    exact ⟨_, _, _, _, _, _, g1, g2, g3, g4, g5, by rw [hN, utxoAfter_written]; rfl⟩

theorem pays_position {pre post : List Op} {op : Op} {s addr : Bytes} {n : Nat} (hp : PaysTextBabbage s n op) (hs : NamesAddress s addr) :
    ∃ o, (outputsOf (pre ++ op :: post))[(outputsOf pre).length]? = some o ∧ addressOf o = addr ∧ amountOf o = n := by
  obtain ⟨old, e⟩ := (C104_text_names s n).2.2.2.2 op addr post hp hs
  refine ⟨payment addr n old, ?_, ?_⟩
  · rw [outputsOf_append, e]; simp
  · cases old <;> exact ⟨rfl, rfl⟩

/-- **C104** (Babbage).  Take any history of the Babbage builder.  If the network takes the bytes, then every payment to a text is, at the id the
builder shows and at its position among the payments, an unspent output with the amount and the address the text names; if the text is the one that
some wallet shows for its keys, its payment key is the one that can spend it.  If the text names an address of another network, the network does not
take the bytes. -/
theorem C104_babbage_arrives (E : Env) (N : Crypto) (hN : N.bodyHash = E.S.hash) (pp : Params) (st : State) (k : Nat) (pre post : List Op) (op : Op)
    (b : Builder) (h : run E k {} (pre ++ op :: post) = some b) (ha : ∀ op' ∈ pre ++ op :: post, ArgsWF op')
    (hl : (pre ++ op :: post).length < 2 ^ 60) (u : TxIn → Option (Bytes × Nat)) (hu : LeavesBabbage N pp st (serialize b) u)
    (s : Bytes) (n : Nat) (hp : PaysTextBabbage s n op) :
    (∀ addr, NamesAddress s addr → u ⟨getID E b, (outputsOf pre).length⟩ = some (addr, n) ∧ networkOf addr = some st.network) ∧
    ∀ nid pmt stk, (∀ x, (N.keyHash x).length = 28) →
      (Base.fromKeys N.keyHash nid pmt stk).toBech32 = .ok s ∨ enterpriseToBech32 (enterpriseFromKey N.keyHash nid pmt) = .ok s →
      ∃ addr, u ⟨getID E b, (outputsOf pre).length⟩ = some (addr, n) ∧ paymentKey addr = some (N.keyHash pmt.key) := by
  obtain ⟨hacc, rfl⟩ := (C104_babbage_leave E N hN pp st k _ b h ha hl u).mp hu
  have hacc := (C103_builder_iff E N pp st k _ b h ha hl).mp hacc
  obtain ⟨-, -, -, -, ho, -⟩ := C100_builder E k _ b h ha hl []
  have main : ∀ addr, NamesAddress s addr →
      utxoAfterBabbage st.utxo (getID E b) b.tx.body ⟨getID E b, (outputsOf pre).length⟩ = some (addr, n) ∧ networkOf addr = some st.network := by
    intro addr hs
    obtain ⟨o, h1, rfl, rfl⟩ := pays_position (pre := pre) (post := post) hp hs
    refine ⟨?_, hacc.network.1 o (by rw [ho]; exact List.mem_of_getElem? h1)⟩
    simp [utxoAfterBabbage, ho, h1]
  refine ⟨main, ?_⟩
  intro nid pmt stk hH ht
  obtain ⟨addr, hs, hpk, -⟩ := C104_owner_text N.keyHash hH nid pmt stk s ht
  exact ⟨addr, (main addr hs).1, hpk⟩

/-- The hypotheses of `C104_babbage_arrives` are met by the wallet of C93: the payment to the text arrives. -/
example : ∃ b u text, LeavesBabbage TxBuilder.toyNetwork toyParams TxBuilder.toyState (serialize b) u ∧
    NamesAddress text (0x61 :: List.replicate 28 2) ∧ u ⟨getID TxBuilder.toyWalletEnv b, 0⟩ = some (0x61 :: List.replicate 28 2, 5000000) := by
  obtain ⟨b3, r1, r2⟩ := toyBabbageSent
  obtain ⟨text, t1, t2⟩ := TxBuilder.toyText
  have ha : ∀ op ∈ toyOps ++ [.addOutputBase toyChange (5500000 - 168669) false, .setFee 168669] ++ TxBuilder.toyKeys.map .sign, ArgsWF op := by
    intro op hop
    simp only [toyOps, TxBuilder.toyKeys, List.map_cons, List.map_nil, List.cons_append, List.nil_append, List.mem_cons, List.not_mem_nil, or_false] at hop
    rcases hop with rfl | rfl | rfl | rfl | rfl | rfl | rfl <;> simp [ArgsWF, toyChange, Spec.TxBuilder.KeyWF]
  have hl := (C104_babbage_leave _ _ rfl toyParams TxBuilder.toyState 12 _ b3 r1 ha (by decide) _).mpr ⟨r2, rfl⟩
  have e : toyOps ++ [.addOutputBase toyChange (5500000 - 168669) false, .setFee 168669] ++ TxBuilder.toyKeys.map .sign =
      toyOps.take 2 ++ .addOutputEnterprise ⟨0x61, List.replicate 28 2⟩ 5000000 false ::
        (toyOps.drop 3 ++ [.addOutputBase toyChange (5500000 - 168669) false, .setFee 168669] ++ TxBuilder.toyKeys.map .sign) := rfl
  rw [e] at r1 ha
  have := (C104_babbage_arrives _ _ rfl toyParams TxBuilder.toyState 12 _ _ _ b3 r1 ha (by decide) _ hl text 5000000 (.enterprise _ false t1)).1 _ t2
  exact ⟨b3, _, text, hl, t2, this.1⟩

end Cardano.BabbageBuilder
