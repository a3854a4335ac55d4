import Verif.Spec.BabbageWire
import Verif.Props.BabbageSent
import Verif.Props.BabbageWallet
import Verif.Props.CborRfc
import Verif.Props.Wire

/-! # What the network does with the bytes of a Babbage transaction (C103) -/

namespace Cardano.BabbageBuilder

open Cardano Cardano.Cbor Cardano.Ledger Cardano.Spec.Ledger Cardano.Spec.BabbageBuilder Cardano.Spec.BabbageRules Cardano.Spec.BabbageWire
  Cardano.Spec.Rfc8949 Cardano.Spec.Wallet
open Cardano.Address (Base)
open Cardano.Spec.LedgerRules (Crypto State paymentKey rewardKey networkOf)
open Cardano.TxBuilder (Env SKey replaceWitness)
open Cardano.Spec.TxBuilder (WitnessSized minFee)

/-! ## Byte strings are split in one way only -/

theorem head_unique {m n m' n' : Nat} {p q r s : Bytes} (hp : Head m n p) (hq : Head m' n' q) (h : p ++ r = q ++ s) : n = n' ∧ r = s := by
  obtain ⟨i1, h1⟩ := head_parse hp r
  obtain ⟨i2, h2⟩ := head_parse hq s
  rw [h, h2] at h1
  simp only [Option.some.injEq, Prod.mk.injEq] at h1
  exact ⟨h1.2.2.1.symm, h1.2.2.2.symm⟩

theorem entries_unique : ∀ (es es' : List Entry), es.length = es'.length → (∀ e ∈ es, Encodes (.uint e.key) e.keyBytes ∧ Encodes e.value e.valueBytes) →
    (∀ e ∈ es', Encodes (.uint e.key) e.keyBytes ∧ Encodes e.value e.valueBytes) →
    es.flatMap (fun e => e.keyBytes ++ e.valueBytes) = es'.flatMap (fun e => e.keyBytes ++ e.valueBytes) → es = es' := by
  intro es
  induction es with
  | nil => intro es' hl _ _ _; cases es' with | nil => rfl | cons => simp at hl
  | cons e es ih =>
    intro es' hl h h' he
    cases es' with
    | nil => simp at hl
    | cons e' es' =>
      simp only [List.flatMap_cons, List.append_assoc] at he
      obtain ⟨a1, a2⟩ := h e (by simp)
      obtain ⟨b1, b2⟩ := h' e' (by simp)
      obtain ⟨c1, c2, c3⟩ := C47_prefix_free _ _ _ _ _ _ a1 b1 he
      obtain ⟨d1, d2, d3⟩ := C47_prefix_free _ _ _ _ _ _ a2 b2 c3
      have := ih es' (by simpa using hl) (fun x hx => h x (by simp [hx])) (fun x hx => h' x (by simp [hx])) d3
      injection c1 with c1
      obtain ⟨_, _, _, _⟩ := e
      obtain ⟨_, _, _, _⟩ := e'
      simp only at c1 c2 d1 d2
      rw [this, c1, c2, d1, d2]

theorem mapBytes_unique {bytes : Bytes} {es es' : List Entry} (h : MapBytes bytes es) (h' : MapBytes bytes es') : es = es' := by
  obtain ⟨hd, e1, g1⟩ := h.split
  obtain ⟨hd', e2, g2⟩ := h'.split
  obtain ⟨hl, hr⟩ := head_unique g1 g2 (e1.symm.trans e2)
  exact entries_unique es es' hl (fun e he => ⟨h.keys e he, h.values e he⟩) (fun e he => ⟨h'.keys e he, h'.values e he⟩) hr

theorem parts_unique : ∀ (ps ps' : List Bytes), ps.length = ps'.length → (∀ p ∈ ps, ∃ i, Encodes i p) → (∀ p ∈ ps', ∃ i, Encodes i p) →
    ps.flatten = ps'.flatten → ps = ps' := by
  intro ps
  induction ps with
  | nil => intro ps' hl _ _ _; cases ps' with | nil => rfl | cons => simp at hl
  | cons p ps ih =>
    intro ps' hl h h' he
    cases ps' with
    | nil => simp at hl
    | cons p' ps' =>
      simp only [List.flatten_cons] at he
      obtain ⟨i, a⟩ := h p (by simp)
      obtain ⟨j, b⟩ := h' p' (by simp)
      obtain ⟨-, rfl, e⟩ := C47_prefix_free _ _ _ _ _ _ a b he
      rw [ih ps' (by simpa using hl) (fun x hx => h x (by simp [hx])) (fun x hx => h' x (by simp [hx])) e]

theorem outputBytes_unique {body : Bytes} {ps ps' : List Bytes} (h : OutputBytes body ps) (h' : OutputBytes body ps') : ps = ps' := by
  obtain ⟨es, g1, e, g2, g3, hd, g4, g5, g6⟩ := h
  obtain ⟨es', g1', e', g2', g3', hd', g4', g5', g6'⟩ := h'
  obtain rfl := mapBytes_unique g1 g1'
  have : e = e' := by
    have hn := g1.once
    have : ∀ (l : List Entry), (l.map Entry.key).Nodup → e ∈ l → e' ∈ l → e.key = e'.key → e = e' := by
      intro l
      induction l with
      | nil => intro _ h; cases h
      | cons x l ih =>
        intro hn h1 h2 hk
        rw [List.map_cons, List.nodup_cons] at hn
        rcases List.mem_cons.mp h1 with g | g <;> rcases List.mem_cons.mp h2 with g' | g'
        · exact g.trans g'.symm
        · exact absurd (g ▸ hk ▸ List.mem_map_of_mem g') hn.1
        · exact absurd (g' ▸ hk ▸ List.mem_map_of_mem g) hn.1
        · exact ih hn.2 g g' hk
    exact this es hn g2 g2' (g3.trans g3'.symm)
  subst this
  obtain ⟨hl, hr⟩ := head_unique g5 g5' (g4.symm.trans g4')
  exact parts_unique ps ps' hl g6 g6' hr

theorem fourItems_unique {bytes : Bytes} {b w b' w' : Item} {f f' : Bool} {body body' : Bytes} (h : FourItems bytes b w f body)
    (h' : FourItems bytes b' w' f' body') : b = b' ∧ w = w' ∧ f = f' ∧ body = body' := by
  obtain ⟨hd, ws, fl, la, e, g1, g2, g3, g4, -⟩ := h
  obtain ⟨hd', ws', fl', la', e', g1', g2', g3', g4', -⟩ := h'
  rw [e] at e'
  simp only [List.append_assoc] at e'
  have e1 := (head_unique g1 g1' e').2
  obtain ⟨rfl, rfl, e2⟩ := C47_prefix_free _ _ _ _ _ _ g2 g2' e1
  obtain ⟨rfl, rfl, e3⟩ := C47_prefix_free _ _ _ _ _ _ g3 g3' e2
  obtain ⟨e4, -, -⟩ := C47_prefix_free _ _ _ _ _ _ g4 g4' e3
  injection e4 with e4
  exact ⟨rfl, rfl, e4, rfl⟩

/-! ## The bytes that the library writes -/

theorem encList_eq_flatMap (ps : List (Nat × Item)) :
    encList (ps.flatMap fun kv => [Item.uint kv.1, kv.2]) = ps.flatMap fun kv => enc (.uint kv.1) ++ enc kv.2 := by
  induction ps with
  | nil => simp [encList]
  | cons p ps ih => simp only [List.flatMap_cons, List.cons_append, List.nil_append, encList, ih, List.append_assoc]

theorem encList_eq_flatten (l : List Item) : encList l = (l.map enc).flatten := by
  induction l with
  | nil => simp [encList]
  | cons i l ih => simp only [encList, List.map_cons, List.flatten_cons, ih]

theorem outputBytes_written (b : Babbage.TxBody) (h : BabbageBodyRep b) :
    OutputBytes b.serialize (b.outputs.map fun o => enc o.ser) := by
  have hwf := Babbage.body_wf b h
  have hmem : ∀ kv ∈ Babbage.pairs b, WF (.uint kv.1) ∧ WF kv.2 := by
    intro kv hkv
    cases hwf with
    | map _ _ hl =>
      rw [← Babbage.pairs_flat] at hl
      exact ⟨hl _ (List.mem_flatMap.mpr ⟨kv, hkv, by simp⟩), hl _ (List.mem_flatMap.mpr ⟨kv, hkv, by simp⟩)⟩
  have hlen : (Babbage.pairs b).length < 2 ^ 64 := by
    unfold Babbage.pairs
    by_cases h2 : b.withdrawals = [] <;> cases h3 : b.ttl <;> simp [h2]
  have hlen2 : b.ser.length / 2 = (Babbage.pairs b).length := by
    rw [← Babbage.pairs_flat, List.length_flatMap]
    simp
  refine ⟨(Babbage.pairs b).map fun kv => ⟨kv.1, enc (.uint kv.1), kv.2, enc kv.2⟩, ⟨⟨encHeader 5 (Babbage.pairs b).length, ?_, ?_⟩, ?_, ?_, ?_⟩,
    ⟨1, enc (.uint 1), .array (b.outputs.map Babbage.TxOut.ser), enc (.array (b.outputs.map Babbage.TxOut.ser))⟩, ?_, rfl, ?_⟩
  · unfold Babbage.TxBody.serialize
    rw [show encMap b.ser = enc (.map b.ser) from rfl, enc, hlen2, ← Babbage.pairs_flat, encList_eq_flatMap, List.flatMap_map]
  · rw [List.length_map]; exact head_enc 5 _ (by omega) hlen
  · intro e he
    obtain ⟨kv, hkv, rfl⟩ := List.mem_map.mp he
    exact enc_encodes _ (hmem kv hkv).1
  · intro e he
    obtain ⟨kv, hkv, rfl⟩ := List.mem_map.mp he
    exact enc_encodes _ (hmem kv hkv).2
  · rw [List.map_map]
    unfold Babbage.pairs
    by_cases h2 : b.withdrawals = [] <;> cases h3 : b.ttl <;> simp [h2]
  · exact List.mem_map.mpr ⟨(1, .array (b.outputs.map Babbage.TxOut.ser)), by simp [Babbage.pairs], rfl⟩
  · have ho := (hmem (1, .array (b.outputs.map Babbage.TxOut.ser)) (by simp [Babbage.pairs])).2
    cases ho with
    | array hl hi =>
      refine ⟨encHeader 4 (b.outputs.map Babbage.TxOut.ser).length, ?_, ?_, ?_⟩
      · dsimp only
        rw [enc, encList_eq_flatten, List.map_map]; rfl
      · rw [List.length_map, List.length_map, ← List.length_map (f := Babbage.TxOut.ser)]; exact head_enc 4 _ (by omega) hl
      · intro p hp
        obtain ⟨o, ho, rfl⟩ := List.mem_map.mp hp
        exact ⟨_, enc_encodes _ (hi _ (List.mem_map_of_mem ho))⟩

theorem fourItems_written (t : Babbage.Tx) (h : BabbageBodyRep t.body) (hf : Fits t.wits.vkeys) (hw : ∀ v ∈ t.wits.vkeys, VkeyRep v) :
    FourItems t.serialize (.map t.body.ser) (.map t.wits.ser) t.flag t.body.serialize := by
  refine ⟨encHeader 4 4, enc (.map t.wits.ser), enc (.bool t.flag), enc .null, ?_, head_enc 4 4 (by omega) (by omega),
    enc_encodes _ (Babbage.body_wf _ h), enc_encodes _ (Babbage.babbage_wits_wf _ hf hw), enc_encodes _ WF.bool, enc_encodes _ WF.null⟩
  show enc (.array t.ser) = _
  rw [enc, Babbage.Tx.ser]
  simp only [encList, List.length_cons, List.length_nil, List.append_nil, List.append_assoc]
  rfl

theorem addressOf_written (o : Babbage.TxOut) : addressOf (babbageOutWritten o) = addressOf o := by cases o <;> rfl
theorem amountOf_written (o : Babbage.TxOut) : amountOf (babbageOutWritten o) = amountOf o := by cases o <;> rfl

theorem forall₂_outputs (c : Nat) (os : List Babbage.TxOut) :
    List.Forall₂ (fun o (arrived : Bytes) => c * (160 + arrived.length) ≤ amountOf o) (os.map babbageOutWritten) (os.map fun o => enc o.ser) ↔
      ∀ o ∈ os, c * (160 + outputSize o) ≤ amountOf o := by
  induction os with
  | nil => simp
  | cons o os ih =>
    simp only [List.map_cons, List.forall₂_cons, ih, List.mem_cons, forall_eq_or_imp, amountOf_written]
    rfl

theorem rules_iff (N : Crypto) (pp : Params) (st : State) (t : Babbage.Tx) (h : BabbageBodyRep t.body)
    (hw : ∀ v ∈ t.wits.vkeys, VkeyRep v) :
    Rules N pp st (babbageWritten t) t.serialize.length t.body.serialize (t.body.outputs.map fun o => enc o.ser) ↔ Accepts N pp st t := by
  have hsum : outputSum (babbageWritten t).body.outputs = outputSum t.body.outputs := by
    unfold outputSum babbageWritten
    dsimp only
    rw [List.map_map]
    congr 1
    exact List.map_congr_left fun o _ => amountOf_written o
  have hnet : (∀ o ∈ (babbageWritten t).body.outputs, networkOf (addressOf o) = some st.network) ↔
      ∀ o ∈ t.body.outputs, networkOf (addressOf o) = some st.network := by
    unfold babbageWritten
    simp only [List.mem_map, forall_exists_index, and_imp, forall_apply_eq_imp_iff₂, addressOf_written]
  have hlarge := forall₂_outputs pp.coinsPerByte t.body.outputs
  constructor
  · intro r
    exact ⟨⟨_, rfl, Babbage.C64_babbage_transaction t h hw⟩, r.flag, r.interval, r.someInput, r.inputsExist, r.rewardAccounts,
      by rw [← hsum]; exact r.valuePreserved, hlarge.mp r.outputsLarge, ⟨hnet.mp r.network.1, r.network.2⟩, r.fee, r.notTooBig, r.witnesses⟩
  · intro r
    exact ⟨r.flag, r.interval, r.someInput, r.inputsExist, r.rewardAccounts, by rw [hsum]; exact r.valuePreserved,
      hlarge.mpr r.outputsLarge, ⟨hnet.mpr r.network.1, r.network.2⟩, r.fee, r.size, r.witnesses⟩

/-- **C103** (any transaction).  Take a Babbage transaction that the library can hold and its serialized bytes.  The network, which knows only the
bytes, accepts them if and only if the transaction in memory obeys the rules.  (The rules take no notice of certificates and script references, and
the bytes have none: C100.) -/
theorem C103_bytes_iff (N : Crypto) (pp : Params) (st : State) (t : Babbage.Tx) (h : BabbageBodyRep t.body) (hf : Fits t.wits.vkeys)
    (hw : ∀ v ∈ t.wits.vkeys, VkeyRep v) : AcceptsBytes N pp st t.serialize ↔ Accepts N pp st t := by
  have h4 := fourItems_written t h hf hw
  have ho := outputBytes_written t.body h
  have hm : BabbageTxMeans (.array [.map t.body.ser, .map t.wits.ser, .bool t.flag, .null]) (babbageWritten t) :=
    ⟨_, _, rfl, Babbage.babbage_body_written t.body h, Babbage.babbage_wits_written t.wits hw⟩
  rw [← rules_iff N pp st t h hw]
  constructor
  · rintro ⟨b, w, f, body, outs, t', g1, g2, g3, -, g5⟩
    obtain ⟨rfl, rfl, rfl, rfl⟩ := fourItems_unique g1 h4
    obtain rfl := outputBytes_unique g3 ho
    obtain rfl := Babbage.C100_unique _ _ _ g2 hm
    exact g5
  · intro r
    exact ⟨_, _, _, _, _, _, h4, hm, ho, rfl, r⟩

/-- **C103** (any history).  After any calls on a new Babbage builder, with arguments of their C++ sizes, the network accepts the serialized bytes if
and only if the transaction in the builder obeys the rules. -/
theorem C103_builder_iff (E : Env) (N : Crypto) (pp : Params) (st : State) (k : Nat) (ops : List Op) (b : Builder)
    (h : run E k {} ops = some b) (ha : ∀ op ∈ ops, ArgsWF op) (hl : ops.length < 2 ^ 60) :
    AcceptsBytes N pp st (serialize b) ↔ Accepts N pp st b.tx := by
  have hlen := run_vkeys_length E k ops {} b h
  exact C103_bytes_iff N pp st b.tx (run_rep E k ops b h ha hl) (by unfold Fits; simp only [List.length_nil] at hlen; omega)
    (fun w hw => (C76_witnesses_valid E k b ops h (fun key e => ha _ e) w hw).1)

/-- **C103** (the two-pass recipe).  Under the conditions of C93 the network accepts the bytes that the builder serializes. -/
theorem C103_two_pass (E : Env) (N : Crypto) (hN : SameCrypto E N) (pp : Params) (st : State) (k : Nat) (hk : 12 ≤ k)
    (ops : List Op) (keys : List SKey) (b0 : Builder) (h0 : run E k {} ops = some b0) (hc : Careful E N pp st keys ops)
    (chg : Base) (hchg : chg.pmt.length = 28 ∧ chg.stk.length = 28) (hnet : networkOf chg.toBytes = some st.network) (pre : Bool)
    (m : Nat) (hm : m < 2 ^ 64) (hleft : Left st ops m) (n : Nat) (hn : keys.length ≤ n) (hn' : keys.length < 2 ^ 58)
    (hmax : ∀ b1, run E k {} (ops ++ [.addOutputBase chg m pre]) = some b1 → ∀ ws : List VkeyWitness, ws.length = n →
      (∀ w ∈ ws, WitnessSized w) → size (withWitnesses b1.tx ws) + 8 ≤ pp.maxTxSize + 1)
    (hfit : minFee pp.minFeeA pp.minFeeB (pp.maxTxSize + 1) < 2 ^ 64) :
    ∃ b1 b1' f, run E k {} (ops ++ [.addOutputBase chg m pre]) = some b1 ∧ calculateFee k b1 n = some (b1', f) ∧
      (minAmount pp (payment chg.toBytes m pre) + f ≤ m →
        ∃ b2, run E k {} (ops ++ [.addOutputBase chg (m - f) pre, .setFee f]) = some b2 ∧
          ((∀ key ∈ keys, CanSign E (getID E b2) key) →
            ∃ b3, run E k {} (ops ++ [.addOutputBase chg (m - f) pre, .setFee f] ++ keys.map .sign) = some b3 ∧
              AcceptsBytes N pp st (serialize b3))) := by
  obtain ⟨b1, b1', f, r1, r2, r3⟩ := C93_two_pass E N hN pp st k hk ops keys b0 h0 hc chg hchg hnet pre m hm hleft n hn hn' hmax hfit
  refine ⟨b1, b1', f, r1, r2, fun henough => ?_⟩
  obtain ⟨b2, r4, r5⟩ := r3 henough
  refine ⟨b2, r4, fun hsign => ?_⟩
  obtain ⟨b3, r6, -, r7⟩ := r5 hsign
  refine ⟨b3, r6, ?_⟩
  obtain ⟨i, -, hi⟩ := r7.format
  refine (C103_builder_iff E N pp st k _ b3 r6 ?_ ?_).mpr r7
  · refine memAppend_args (memAppend_args hc.args ?_) ?_
    · intro op ho
      simp only [List.mem_cons, List.not_mem_nil, or_false] at ho
      rcases ho with rfl | rfl
      · exact ⟨hchg.1, hchg.2, by omega⟩
      · show f < 2 ^ 64
        omega
    · intro op ho
      obtain ⟨key, hk, rfl⟩ := List.mem_map.mp ho
      have := hsign key hk
      cases key with
      | ed seed => exact this.1
      | bip x => exact this.1
  · simp only [List.length_append, List.length_cons, List.length_nil, List.length_map]
    have := hc.short
    omega

/-- The wallet of C93: the network accepts its bytes. -/
theorem toyBabbageSent : ∃ b3, run TxBuilder.toyWalletEnv 12 {} (toyOps ++ [.addOutputBase toyChange (5500000 - 168669) false, .setFee 168669] ++
      TxBuilder.toyKeys.map .sign) = some b3 ∧ AcceptsBytes TxBuilder.toyNetwork toyParams TxBuilder.toyState (serialize b3) := by
  obtain ⟨b3, r1, r2⟩ := toyBabbageAccepted
  refine ⟨b3, r1, (C103_builder_iff _ _ _ _ _ _ _ r1 ?_ (by decide)).mpr r2⟩
  intro op hop
  simp only [toyOps, TxBuilder.toyKeys, List.map_cons, List.map_nil, List.cons_append, List.nil_append, List.mem_cons, List.not_mem_nil, or_false] at hop
  rcases hop with rfl | rfl | rfl | rfl | rfl | rfl | rfl <;> simp [ArgsWF, toyChange, Spec.TxBuilder.KeyWF]

end Cardano.BabbageBuilder
