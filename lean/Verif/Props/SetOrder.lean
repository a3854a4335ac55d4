import Verif.Spec.SetOrder
import Verif.Props.TxMade
import Verif.Props.BabbageSent
import Verif.Props.LedgerStable
import Verif.Props.PoolReg

/-! # C108: sets and maps are written in order -/

namespace Cardano

open Cardano.Cbor Cardano.Ledger Cardano.Spec.Ledger Cardano.Spec.SetOrder

theorem not_before_nil (a : Bytes) : ¬ Before a [] := by
  rintro (⟨x, s, h⟩ | ⟨p, x, y, s, t, -, h, -⟩) <;> simp at h

theorem nil_before (x : UInt8) (s : Bytes) : Before [] (x :: s) := Or.inl ⟨x, s, rfl⟩

theorem before_cons (a b : UInt8) (as bs : Bytes) :
    Before (a :: as) (b :: bs) ↔ a.toNat < b.toNat ∨ (a = b ∧ Before as bs) := by
  constructor
  · rintro (⟨x, s, h⟩ | ⟨p, x, y, s, t, h1, h2, h⟩)
    · simp only [List.cons_append, List.cons.injEq] at h
      exact Or.inr ⟨h.1.symm, Or.inl ⟨x, s, h.2⟩⟩
    · cases p with
      | nil =>
        simp only [List.nil_append, List.cons.injEq] at h1 h2
        rw [h1.1, h2.1]; exact Or.inl h
      | cons c p =>
        simp only [List.cons_append, List.cons.injEq] at h1 h2
        exact Or.inr ⟨by rw [h1.1, h2.1], Or.inr ⟨p, x, y, s, t, h1.2, h2.2, h⟩⟩
  · rintro (h | ⟨rfl, ⟨x, s, rfl⟩ | ⟨p, x, y, s, t, rfl, rfl, h⟩⟩)
    · exact Or.inr ⟨[], a, b, as, bs, rfl, rfl, h⟩
    · exact Or.inl ⟨x, s, rfl⟩
    · exact Or.inr ⟨a :: p, x, y, s, t, rfl, rfl, h⟩

theorem bytesLt_iff : ∀ a b : Bytes, bytesLt a b = true ↔ Before a b
  | a, [] => ⟨fun h => by cases a <;> simp [bytesLt] at h, fun h => absurd h (not_before_nil a)⟩
  | [], x :: s => ⟨fun _ => nil_before x s, fun _ => rfl⟩
  | a :: as, b :: bs => by
    rw [before_cons, ← bytesLt_iff as bs]
    simp [bytesLt, UInt8.lt_iff_toNat_lt]

theorem before_irrefl (a : Bytes) : ¬ Before a a := by
  rw [← bytesLt_iff, bytesLt_irrefl]; simp

theorem inputLt_iff (a b : TxIn) : TxIn.lt a b = true ↔ InputBefore (a.txId, a.index) (b.txId, b.index) := by
  unfold TxIn.lt InputBefore
  dsimp only
  split
  · rename_i h
    rw [h]
    simp [before_irrefl]
  · rename_i h
    simp [h, bytesLt_iff]

/-- **C108** (the order itself): of two different byte strings exactly one comes before the other, and the order is
transitive; so a set has one increasing arrangement. -/
theorem C108_total_order :
    (∀ a, ¬ Before a a) ∧ (∀ a b c, Before a b → Before b c → Before a c) ∧ (∀ a b, a ≠ b → Before a b ∨ Before b a) := by
  refine ⟨before_irrefl, fun a b c => ?_, fun a b h => ?_⟩
  · rw [← bytesLt_iff, ← bytesLt_iff, ← bytesLt_iff]; exact bytesLt_trans a b c
  · rw [← bytesLt_iff, ← bytesLt_iff]
    by_contra hc
    rw [not_or, Bool.not_eq_true, Bool.not_eq_true] at hc
    exact h (bytesLt_total a b hc.1 hc.2)

theorem sorted_before {l : List Bytes} (h : StrictSorted bytesLt l) : l.Pairwise Before :=
  List.Pairwise.imp (fun h => (bytesLt_iff _ _).mp h) h

theorem sorted_inputs {l : List TxIn} (h : StrictSorted TxIn.lt l) :
    (l.map fun i => (i.txId, i.index)).Pairwise InputBefore := by
  rw [List.pairwise_map]
  exact List.Pairwise.imp (fun h => (inputLt_iff _ _).mp h) h

theorem pairwise_ext {α} {r : α → α → Prop} (hi : ∀ a, ¬ r a a) (ht : ∀ a b c, r a b → r b c → r a c) :
    ∀ l m : List α, l.Pairwise r → m.Pairwise r → (∀ x, x ∈ l ↔ x ∈ m) → l = m
  | [], [], _, _, _ => rfl
  | [], y :: m, _, _, h => by have := (h y).mpr (by simp); simp at this
  | x :: l, [], _, _, h => by have := (h x).mp (by simp); simp at this
  | x :: l, y :: m, hl, hm, h => by
    rw [List.pairwise_cons] at hl hm
    have e : x = y := by
      by_contra hne
      have h1 : x ∈ m := by have := (h x).mp (by simp); simp only [List.mem_cons] at this; tauto
      have h2 : y ∈ l := by have := (h y).mpr (by simp); simp only [List.mem_cons] at this; tauto
      exact hi x (ht x y x (hl.1 y h2) (hm.1 x h1))
    subst e
    congr 1
    refine pairwise_ext hi ht l m hl.2 hm.2 fun z => ?_
    constructor
    · intro hz
      have := (h z).mp (by simp [hz])
      rcases List.mem_cons.mp this with rfl | h'
      · exact absurd (hl.1 z hz) (hi z)
      · exact h'
    · intro hz
      have := (h z).mpr (by simp [hz])
      rcases List.mem_cons.mp this with rfl | h'
      · exact absurd (hm.1 z hz) (hi z)
      · exact h'

theorem nodup_value {α} {ps : List (Nat × α)} (hd : (ps.map (·.1)).Nodup) {k : Nat} {v w : α} (hv : (k, v) ∈ ps)
    (hw : (k, w) ∈ ps) : v = w := by
  have := List.inj_on_of_nodup_map hd hv hw rfl
  simpa using this

/-- **C108** (the lists are in the bytes).  A body lists one sequence of inputs and one sequence of withdrawals. -/
theorem C108_determined (body : Item) (ins ins' ws ws' : List (Bytes × Nat)) (h : Lists body ins ws)
    (h' : Lists body ins' ws') : ins = ins' ∧ ws = ws' := by
  obtain ⟨ps, rfl, hd, h0, -, h5, -⟩ := h
  obtain ⟨ps', e, -, h0', -, h5', -⟩ := h'
  simp only [Item.map.injEq] at e
  have := flat_uint_inj e
  subst this
  have hinj : Function.Injective inputItem := by
    rintro ⟨a, n⟩ ⟨c, m⟩ h
    simpa [inputItem] using h
  constructor
  · have := nodup_value hd h0 h0'
    simp only [Item.array.injEq] at this
    exact hinj.list_map this
  · rcases h5 with ⟨v, hv, rfl⟩ | ⟨hn, rfl⟩ <;> rcases h5' with ⟨v', hv', rfl⟩ | ⟨hn', rfl⟩
    · have := nodup_value hd hv hv'
      simp only [Item.map.injEq] at this
      exact flat_wd_inj this
    · exact absurd (List.mem_map_of_mem hv) hn'
    · exact absurd (List.mem_map_of_mem hv') hn
    · rfl

/-- **C108** (one arrangement).  Bodies that list the same inputs list them in the same sequence, so the position of an input in the
bytes depends on the set only. -/
theorem C108_one_arrangement (body body' : Item) (ins ins' ws ws' : List (Bytes × Nat)) (h : Lists body ins ws)
    (h' : Lists body' ins' ws') (hs : ∀ x, x ∈ ins ↔ x ∈ ins') : ins = ins' := by
  obtain ⟨-, -, -, -, p, -⟩ := h
  obtain ⟨-, -, -, -, p', -⟩ := h'
  obtain ⟨o1, o2, -⟩ := C108_total_order
  refine pairwise_ext ?_ ?_ _ _ p p' hs
  · rintro a (h | ⟨-, h⟩)
    · exact o1 _ h
    · omega
  · rintro a b c (h | ⟨e, h⟩) (g | ⟨e', g⟩)
    · exact Or.inl (o2 _ _ _ h g)
    · exact Or.inl (e' ▸ h)
    · exact Or.inl (by rw [e]; exact g)
    · exact Or.inr ⟨e.trans e', by omega⟩

theorem lists_shelley (b : TxBody) (h : BodyRep b) (l : List Item) (hl : b.ser = .ok l) :
    Lists (.map l) (b.inputs.map fun i => (i.txId, i.index)) b.withdrawals := by
  obtain ⟨cs, hcs, rfl⟩ := body_ser_ok b l hl
  obtain ⟨⟨_, hi1, hi2⟩, -, _, _, -, ⟨_, hw, _⟩, hm⟩ := h
  rw [← bodyPairs_flat]
  refine ⟨bodyPairs b cs, rfl, ?_, ?_, sorted_inputs hi1, ?_, sorted_before hw⟩
  · unfold bodyPairs
    by_cases h1 : b.certificates = [] <;> by_cases h2 : b.withdrawals = [] <;> cases h3 : b.metadataHash <;>
      simp [h1, h2]
  · simp [bodyPairs, inputItem, TxIn.ser]
  · by_cases h5 : b.withdrawals = []
    · refine Or.inr ⟨?_, h5⟩
      unfold bodyPairs
      by_cases h1 : b.certificates = [] <;> cases h3 : b.metadataHash <;> simp [h1, h5]
    · refine Or.inl ⟨.map (withdrawalItems b.withdrawals), by simp [bodyPairs, h5], ?_⟩
      rw [withdrawalItems_flat, List.flatMap_map]; rfl

theorem lists_babbage (b : Babbage.TxBody) (h : BabbageBodyRep b) :
    Lists (.map b.ser) (b.inputs.map fun i => (i.txId, i.index)) b.withdrawals := by
  obtain ⟨⟨_, hi1, hi2⟩, -, _, _, ⟨_, hw, _⟩⟩ := h
  rw [← Babbage.pairs_flat]
  refine ⟨Babbage.pairs b, rfl, ?_, ?_, sorted_inputs hi1, ?_, sorted_before hw⟩
  · unfold Babbage.pairs
    by_cases h2 : b.withdrawals = [] <;> cases h3 : b.ttl <;> simp [h2]
  · simp [Babbage.pairs, inputItem, TxIn.ser]
  · by_cases h5 : b.withdrawals = []
    · refine Or.inr ⟨?_, h5⟩
      unfold Babbage.pairs
      cases h3 : b.ttl <;> simp [h5]
    · refine Or.inl ⟨.map (withdrawalItems b.withdrawals), by simp [Babbage.pairs, h5], ?_⟩
      rw [withdrawalItems_flat, List.flatMap_map]; rfl

theorem written_lists (t : Tx) (h : TxRep t) (bytes rest : Bytes) (hb : t.serialize = .ok bytes) :
    ∃ body more, parse (bytes ++ rest) = some (.array (body :: more)) ∧
      Lists body (t.body.inputs.map fun i => (i.txId, i.index)) t.body.withdrawals := by
  obtain ⟨l, hl, e⟩ := Out.bind_eq_ok.mp (show (t.ser >>= fun l => .ok (encArray l)) = .ok bytes from hb)
  simp only [Out.ok.injEq] at e; subst e
  have hp := parse_enc_append _ (tx_wf t h l hl) rest
  unfold Tx.ser at hl
  obtain ⟨bb, hbb, e⟩ := Out.bind_eq_ok.mp hl
  simp only [Out.ok.injEq] at e; subst e
  exact ⟨_, _, hp, lists_shelley _ h.1 bb hbb⟩

/-- **C108** (Shelley builder).  After any calls on a new builder, the bytes it serializes — whatever follows them — list each of the
inputs added once, in increasing order of id and index, and for each address withdrawn from the last amount, in
increasing order of the address bytes. -/
theorem C108_shelley (E : TxBuilder.Env) (k : Nat) (ops : List TxBuilder.Op) (b : TxBuilder.Builder)
    (h : TxBuilder.run E k {} ops = some b) (ha : ∀ op ∈ ops, Spec.Wire.ArgsWF op) (hn : ops.length < 2 ^ 62)
    (bytes rest : Bytes) (hb : b.tx.serialize = .ok bytes) :
    ∃ body more ins ws, parse (bytes ++ rest) = some (.array (body :: more)) ∧ Lists body ins ws ∧
      (∀ x, x ∈ ins ↔ ∃ u ∈ Spec.TxBuilder.inputsOf ops, x = (u.id.take 32, u.index)) ∧
      (∀ a n, (a, n) ∈ ws ↔ Spec.TxBuilder.lastFor a (Spec.TxBuilder.withdrawalsOf ops) = some n) := by
  have hr : TxRep b.tx := (TxBuilder.made_run E k ops 0 {} b ha (TxBuilder.made_new 0) h).rep (by omega)
  obtain ⟨body, more, hp, hl⟩ := written_lists b.tx hr bytes rest hb
  obtain ⟨g1, g2, -⟩ := TxBuilder.run_facts E k ops {} b h
  have s1 := foldl_setInsert txInLt_order ((Spec.TxBuilder.inputsOf ops).map Spec.TxBuilder.spends) [] List.Pairwise.nil
  have s2 := TxBuilder.foldl_mapAssign (Spec.TxBuilder.withdrawalsOf ops) [] List.Pairwise.nil
  refine ⟨body, more, _, _, hp, hl, fun x => ?_, fun a n => ?_⟩
  · rw [g1]
    simp only [List.mem_map]
    constructor
    · rintro ⟨i, hi, rfl⟩
      have := (s1.2 i).mp hi
      simp only [List.mem_map, List.not_mem_nil, false_or] at this
      obtain ⟨u, hu, rfl⟩ := this
      exact ⟨u, hu, rfl⟩
    · rintro ⟨u, hu, rfl⟩
      exact ⟨Spec.TxBuilder.spends u, (s1.2 _).mpr (Or.inr (List.mem_map_of_mem hu)), rfl⟩
  · rw [g2]
    have := s2.2 (a, n)
    rw [this]; simp

theorem babbage_wf (E : TxBuilder.Env) (k : Nat) (ops : List BabbageBuilder.Op) (b : BabbageBuilder.Builder)
    (h : BabbageBuilder.run E k {} ops = some b) (ha : ∀ op ∈ ops, Spec.BabbageBuilder.ArgsWF op) (hn : ops.length < 2 ^ 60) :
    WF (.array b.tx.ser) := by
  refine WF.array (by simp [Babbage.Tx.ser]) fun i hi => ?_
  simp only [Babbage.Tx.ser, List.mem_cons, List.not_mem_nil, or_false] at hi
  rcases hi with rfl | rfl | rfl | rfl
  · exact Babbage.body_wf _ (BabbageBuilder.run_rep E k ops b h ha hn)
  · refine Babbage.babbage_wits_wf _ ?_ (fun w hw => (BabbageBuilder.C76_witnesses_valid E k b ops h (fun key e => ha _ e) w hw).1)
    have := BabbageBuilder.run_vkeys_length E k ops {} b h
    unfold Fits; simp only [List.length_nil] at this; omega
  · exact WF.bool
  · exact WF.null

/-- **C108** (Babbage builder). -/
theorem C108_babbage (E : TxBuilder.Env) (k : Nat) (ops : List BabbageBuilder.Op) (b : BabbageBuilder.Builder)
    (h : BabbageBuilder.run E k {} ops = some b) (ha : ∀ op ∈ ops, Spec.BabbageBuilder.ArgsWF op) (hn : ops.length < 2 ^ 60)
    (rest : Bytes) :
    ∃ body more ins ws, parse (BabbageBuilder.serialize b ++ rest) = some (.array (body :: more)) ∧ Lists body ins ws ∧
      (∀ x, x ∈ ins ↔ ∃ i ∈ Spec.BabbageBuilder.inputsOf ops, x = (i.txId, i.index)) ∧
      (∀ a n, (a, n) ∈ ws ↔ Spec.TxBuilder.lastFor a (Spec.BabbageBuilder.withdrawalsOf ops) = some n) := by
  obtain ⟨⟨-, c2⟩, -, ⟨-, c5⟩, -⟩ := BabbageBuilder.C78_body E k ops b h
  have hl := lists_babbage b.tx.body (BabbageBuilder.run_rep E k ops b h ha hn)
  have hp : parse (BabbageBuilder.serialize b ++ rest) = some (.array (.map b.tx.body.ser :: [.map b.tx.wits.ser, .bool b.tx.flag, .null])) :=
    parse_enc_append (.array b.tx.ser) (babbage_wf E k ops b h ha hn) rest
  refine ⟨_, _, _, _, hp, hl, fun x => ?_, c5⟩
  simp only [List.mem_map]
  constructor
  · rintro ⟨j, hj, rfl⟩; exact ⟨j, (c2 j).mp hj, rfl⟩
  · rintro ⟨j, hj, rfl⟩; exact ⟨j, (c2 j).mpr hj, rfl⟩

/-- **C108** (read and written again).  Whatever bytes a transaction was read from — its sets in any order there — the bytes written from it list
inputs and withdrawals in order. -/
theorem C108_reread (b : Bytes) (hb : b.length < 2 ^ 63) (t : Tx) (h : Tx.deserialize {} b = .ok t) (bytes rest : Bytes)
    (hs : t.serialize = .ok bytes) :
    ∃ body more ins ws, parse (bytes ++ rest) = some (.array (body :: more)) ∧ Lists body ins ws :=
  let ⟨body, more, h1, h2⟩ := written_lists t (C70_decoded_transaction b hb t h) bytes rest hs
  ⟨body, more, _, _, h1, h2⟩

/-- **C108** (pool owners).  After any calls on a pool registration the certificate lists the owners, if there are any, in its eighth
element, each once and in increasing order. -/
theorem C108_owners (E : Pool.Env) (fuel : Nat) (hfuel : 63 ≤ fuel) (calls : List Pool.Call) (p p' : PoolParams)
    (hv : Pool.Valid p) (hc : ∀ c ∈ calls, Pool.CallOk c) (h : Pool.run E fuel p calls = some (.ok p'))
    (l : List Item) (hl : (Certificate.poolReg p').ser = .ok l) :
    ∃ os : List Bytes, os.Pairwise Before ∧ (∀ o, o ∈ os ↔ o ∈ p.owners ∨ ∃ a, .addOwner a ∈ calls ∧ a.key = o) ∧
      (os ≠ [] → l[7]? = some (.array (os.map .bstr))) := by
  obtain ⟨q, hq, hval, -, -, -, -, -, -, -, ho, -⟩ := Pool.C58_history_partial E fuel hfuel calls p hv hc
  obtain rfl : q = p' := by rw [hq] at h; simpa using h
  refine ⟨q.owners, sorted_before hval.2.2.2.2.2.2.1.1, ho, fun hne => ?_⟩
  obtain ⟨ps, hps, e⟩ := Out.bind_eq_ok.mp (show (q.ser >>= fun ps => .ok (.uint 3 :: ps)) = .ok l from hl)
  simp only [Out.ok.injEq] at e; subst e
  unfold PoolParams.ser at hps
  obtain ⟨rs, -, e⟩ := Out.bind_eq_ok.mp hps
  simp only [Out.ok.injEq] at e; subst e
  simp [ownersItem, hne]

/-! ## Concrete cases -/

/-- Unsigned: 7F comes before 80; and a byte string comes before its continuations. -/
example : Before [0x7F, 0xFF] [0x80] ∧ Before [1] [1, 0] ∧ ¬ Before [0x80] [0x7F, 0xFF] := by
  refine ⟨?_, ?_, ?_⟩ <;> rw [← bytesLt_iff] <;> decide

/-- Three inputs added in the wrong order, one of them twice, are listed in order. -/
example (E : TxBuilder.Env) (rest : Bytes) :
    ∃ b bytes, TxBuilder.run E 0 {} [.addInput ⟨List.replicate 32 0x80, 0, 5⟩, .addInput ⟨List.replicate 32 0x7F, 256, 5⟩,
      .addInput ⟨List.replicate 32 0x7F, 3, 5⟩, .addInput ⟨List.replicate 32 0x80, 0, 5⟩] = some b ∧ b.tx.serialize = .ok bytes ∧
      ∃ body more, parse (bytes ++ rest) = some (.array (body :: more)) ∧
        Lists body [(List.replicate 32 0x7F, 3), (List.replicate 32 0x7F, 256), (List.replicate 32 0x80, 0)] [] := by
  refine ⟨_, _, rfl, rfl, ?_⟩
  obtain ⟨body, more, ins, ws, h1, h2, h3, h4⟩ := C108_shelley E 0 [.addInput ⟨List.replicate 32 0x80, 0, 5⟩,
    .addInput ⟨List.replicate 32 0x7F, 256, 5⟩, .addInput ⟨List.replicate 32 0x7F, 3, 5⟩,
    .addInput ⟨List.replicate 32 0x80, 0, 5⟩] _ rfl (by simp [Spec.Wire.ArgsWF]) (by simp) _ rest rfl
  refine ⟨body, more, h1, ?_⟩
  have e : ws = [] := by
    cases ws with
    | nil => rfl
    | cons x ws =>
      have := (h4 x.1 x.2).mp (by simp)
      simp [Spec.TxBuilder.withdrawalsOf, Spec.TxBuilder.lastFor] at this
  subst e
  obtain ⟨o1, o2, -⟩ := C108_total_order
  obtain ⟨ps, q1, q2, q3, q4, q5, q6⟩ := h2
  have key : ins = [(List.replicate 32 0x7F, 3), (List.replicate 32 0x7F, 256), (List.replicate 32 0x80, 0)] := by
    refine pairwise_ext (r := InputBefore) ?_ ?_ _ _ q4 ?_ ?_
    · rintro a (h | ⟨-, h⟩)
      · exact o1 _ h
      · omega
    · rintro a b c (h | ⟨e, h⟩) (g | ⟨e', g⟩)
      · exact Or.inl (o2 _ _ _ h g)
      · exact Or.inl (e' ▸ h)
      · exact Or.inl (by rw [e]; exact g)
      · exact Or.inr ⟨e.trans e', by omega⟩
    · have hb : Before (List.replicate 32 (0x7F : UInt8)) (List.replicate 32 0x80) := by rw [← bytesLt_iff]; decide
      simp only [List.pairwise_cons, List.mem_cons, List.not_mem_nil, or_false, forall_eq_or_imp, forall_eq, InputBefore]
      exact ⟨⟨Or.inr (by simp), Or.inl hb⟩, Or.inl hb, by simp, List.Pairwise.nil⟩
    · intro x
      rw [h3 x]
      simp [Spec.TxBuilder.inputsOf]
      tauto
  exact ⟨ps, q1, q2, key ▸ q3, key ▸ q4, q5, q6⟩

/-- The same for the Babbage builder: the hypotheses are met by a history with two inputs and a withdrawal. -/
example (E : TxBuilder.Env) :
    (∃ b, BabbageBuilder.run E 0 {} [.addInput (List.replicate 32 0x80) 0, .addInput (List.replicate 32 0x7F) 9,
      .addWithdrawal ⟨0xE1, List.replicate 28 5⟩ 7] = some b ∧
      b.tx.body.inputs = [⟨List.replicate 32 0x7F, 9⟩, ⟨List.replicate 32 0x80, 0⟩]) ∧
    ∀ op ∈ [BabbageBuilder.Op.addInput (List.replicate 32 0x80) 0, .addInput (List.replicate 32 0x7F) 9,
      .addWithdrawal ⟨0xE1, List.replicate 28 5⟩ 7], Spec.BabbageBuilder.ArgsWF op :=
  ⟨⟨_, rfl, by decide +kernel⟩, by simp [Spec.BabbageBuilder.ArgsWF]⟩

/-- A transaction read from bytes whose withdrawals are out of order, and the bytes written from it. -/
example : ∃ t s, Tx.deserialize {} [0x83, 0xa1, 0x05, 0xa2, 0x41, 0xe1, 0x01, 0x41, 0xe0, 0x02, 0xa0, 0xf6] = .ok t ∧
    t.body.withdrawals = [([0xe0], 2), ([0xe1], 1)] ∧ t.serialize = .ok s := ⟨_, _, rfl, rfl, rfl⟩

/-- Two owners added in the wrong order (the registration of `Props/PoolReg`). -/
example (E : Pool.Env) : ∃ p p' l, Pool.register E 63 (List.replicate 32 1) (List.replicate 32 2) 7 340000000 (.fin false 1 2)
      ⟨0xE1, List.replicate 28 5⟩ = some (.ok p) ∧
    Pool.run E 63 p [.addOwner ⟨0xE1, List.replicate 28 9⟩, .addOwner ⟨0xE1, List.replicate 28 3⟩] = some (.ok p') ∧
    (Certificate.poolReg p').ser = .ok l ∧ l[7]? = some (.array [.bstr (List.replicate 28 3), .bstr (List.replicate 28 9)]) :=
  ⟨_, _, _, rfl, rfl, rfl, rfl⟩

end Cardano
