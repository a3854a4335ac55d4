import Verif.Props.LedgerWritten
import Verif.Spec.BabbageMeaning

/-! # What a serialized Babbage transaction means (C100) -/

namespace Cardano.Ledger.Babbage

open Cardano.Cbor Cardano.Spec.Ledger Cardano.Ledger

/-! ## The meaning is one -/

/-- What key 3 of a Babbage body means. -/
def TtlMeans (o : Option Nat) (v : Item) : Prop := ∃ n, v = .uint n ∧ o = some n

theorem ttl_unique (v : Item) (a b : Option Nat) (h : TtlMeans a v) (h' : TtlMeans b v) : a = b := by
  obtain ⟨x, rfl, rfl⟩ := h
  obtain ⟨y, e, rfl⟩ := h'
  injection e with e; rw [e]

/-- What key 3 of an output means. -/
def RefMeans (o : Option Bytes) (v : Item) : Prop := ∃ c, v = .tag 24 (.bstr c) ∧ o = some c

theorem ref_unique (v : Item) (a b : Option Bytes) (h : RefMeans a v) (h' : RefMeans b v) : a = b := by
  obtain ⟨x, rfl, rfl⟩ := h
  obtain ⟨y, e, rfl⟩ := h'
  injection e with _ e
  injection e with e
  rw [e]

theorem babbage_out_unique (i : Item) (o o' : TxOut) (h : BabbageOutMeans i o) (h' : BabbageOutMeans i o') : o = o' := by
  rcases o with ⟨a, n, _ | d⟩ | ⟨a, n, r⟩ <;> rcases o' with ⟨a', n', _ | d'⟩ | ⟨a', n', r'⟩ <;>
    simp only [BabbageOutMeans] at h h'
  · subst h; simp at h'; simp [h']
  · subst h; simp at h'
  · subst h; simp at h'
  · obtain ⟨rfl, -⟩ := h; simp at h'
  · obtain ⟨rfl, -⟩ := h; simp at h'; simp [h']
  · obtain ⟨rfl, -⟩ := h; simp at h'
  · subst h'; simp at h
  · obtain ⟨rfl, -⟩ := h'; simp at h
  · obtain ⟨ps, rfl, hd, -, h0, h1, h3⟩ := h
    obtain ⟨ps', e, -, -, h0', h1', h3'⟩ := h'
    injection e with e
    have := flat_uint_inj e
    subst this
    have e0 := at_key hd h0 h0'
    have e1 := at_key hd h1 h1'
    have e3 := at_unique hd (P := RefMeans) ref_unique h3 h3'
    injection e0 with e0; injection e1 with e1
    rw [e0, e1, e3]

theorem babbage_body_unique (i : Item) (b b' : Babbage.TxBody) (h : BabbageBodyMeans i b) (h' : BabbageBodyMeans i b') : b = b' := by
  obtain ⟨ps, rfl, hd, -, ⟨xs, h0, -, i1, i2, i3⟩, ⟨v1, h1, ho⟩, h2, h3, h4, h5⟩ := h
  obtain ⟨ps', e, -, -, ⟨xs', h0', -, i1', i2', i3'⟩, ⟨v1', h1', ho'⟩, h2', h3', h4', h5'⟩ := h'
  injection e with e
  have := flat_uint_inj e
  subst this
  have ex := at_key hd h0 h0'
  injection ex with ex; subst ex
  have e0 := inputs_unique i1 i1' i2 i3 i2' i3'
  have e1 : b.outputs = b'.outputs := by
    rw [at_key hd h1 h1'] at ho; exact arrayMeans_unique babbage_out_unique _ _ _ ho ho'
  have e2 := at_key hd h2 h2'
  injection e2 with e2
  have e3 := at_unique hd (P := TtlMeans) ttl_unique h3 h3'
  have e4 := at_unique hd (fun i a b => arrayMeans_unique cert_unique i a b) h4 h4'
  have e5 := at_unique hd (P := WdMeans) wd_unique h5 h5'
  cases b; cases b'; simp_all

/-- **C100** (one meaning).  No item means two different transactions. -/
theorem C100_unique (i : Item) (t t' : Babbage.Tx) (h : BabbageTxMeans i t) (h' : BabbageTxMeans i t') : t = t' := by
  obtain ⟨b, w, rfl, hb, ⟨ps, rfl, hd, -, hw⟩⟩ := h
  obtain ⟨b', w', e, hb', ⟨ps', rfl, -, -, hw'⟩⟩ := h'
  simp only [Item.array.injEq, List.cons.injEq, and_true, Item.map.injEq, Item.bool.injEq] at e
  obtain ⟨rfl, e, e3⟩ := e
  have := flat_uint_inj e
  subst this
  have e1 := babbage_body_unique _ _ _ hb hb'
  have e2 := at_unique hd (fun i a b => arrayMeans_unique vkey_unique i a b) hw hw'
  obtain ⟨x, ⟨y⟩, z⟩ := t
  obtain ⟨x', ⟨y'⟩, z'⟩ := t'
  simp_all

/-! ## What is written -/

theorem babbage_out_written (o : TxOut) (h : BabbageOutRep o) : BabbageOutMeans o.ser (babbageOutWritten o) := by
  rcases o with ⟨a, n, _ | d⟩ | ⟨a, n, r⟩
  · rfl
  · exact ⟨rfl, h.2.2 d rfl⟩
  · exact ⟨[(0, .bstr a), (1, .uint n)], rfl, by simp, by simp, by simp, by simp, Or.inr ⟨by simp, rfl⟩⟩

theorem babbage_body_written (b : Babbage.TxBody) (h : BabbageBodyRep b) :
    BabbageBodyMeans (.map b.ser) { b with certificates := [], outputs := b.outputs.map babbageOutWritten } := by
  obtain ⟨⟨_, hi1, hi2⟩, ⟨_, ho⟩, _, _, ⟨_, hw, _⟩⟩ := h
  rw [← pairs_flat]
  have keys : ∀ k, k ∈ (pairs b).map (·.1) ↔ k = 0 ∨ k = 1 ∨ k = 2 ∨ (k = 3 ∧ b.ttl ≠ none) ∨ (k = 5 ∧ b.withdrawals ≠ []) := by
    intro k
    unfold pairs
    by_cases h2 : b.withdrawals = [] <;> cases h3 : b.ttl <;> simp [h2, or_assoc]
  refine ⟨pairs b, rfl, ?_, ?_, ?_, ?_, ?_, ?_, ?_, ?_⟩
  · unfold pairs
    by_cases h2 : b.withdrawals = [] <;> cases h3 : b.ttl <;> simp [h2]
  · intro k hk
    rw [keys] at hk
    omega
  · refine ⟨b.inputs.map fun i => .array i.ser, by simp [pairs], (inputsC _ hi1 hi2).1, hi1, ?_, ?_⟩
    · intro x hx
      obtain ⟨t, ht, rfl⟩ := List.mem_map.mp hx
      exact ⟨t, ht, rfl, (hi2 t ht).1⟩
    · intro t ht
      exact ⟨_, List.mem_map_of_mem ht, rfl, (hi2 t ht).1⟩
  · refine ⟨.array (b.outputs.map TxOut.ser), by simp [pairs], _, rfl, ?_⟩
    rw [List.forall₂_map_left_iff, List.forall₂_map_right_iff]
    generalize b.outputs = os at ho
    induction os with
    | nil => exact .nil
    | cons o os ih => exact .cons (babbage_out_written o (ho o (by simp))) (ih fun x hx => ho x (by simp [hx]))
  · simp [pairs]
  · cases h3 : b.ttl with
    | none => exact Or.inr ⟨by rw [keys]; simp [h3], rfl⟩
    | some n => exact Or.inl ⟨.uint n, by simp [pairs, h3], n, rfl, rfl⟩
  · exact Or.inr ⟨by rw [keys]; simp, rfl⟩
  · by_cases h5 : b.withdrawals = []
    · exact Or.inr ⟨by rw [keys]; simp [h5], h5⟩
    · refine Or.inl ⟨.map (withdrawalItems b.withdrawals), by simp [pairs, h5], b.withdrawals, ?_,
        sorted_nodup bytesLt_order _ hw, hw, List.Perm.refl _⟩
      rw [withdrawalItems_flat, List.flatMap_map]; rfl

theorem babbage_wits_written (w : Babbage.WitnessSet) (hw : ∀ v ∈ w.vkeys, VkeyRep v) :
    BabbageWitsMeans (.map w.ser) w := by
  unfold WitnessSet.ser vkeysEntry
  by_cases h : w.vkeys = []
  · exact ⟨[], by simp [h, flat], by simp, by simp, Or.inr ⟨by simp, h⟩⟩
  · exact ⟨[(0, .array (w.vkeys.map fun v => .array v.ser))], by simp [h, flat], by simp, by simp,
      Or.inl ⟨_, List.mem_singleton.mpr rfl, _, rfl, forall₂_map_self _ _ fun v hv => ⟨rfl, hw v hv⟩⟩⟩

theorem babbage_wits_wf (w : Babbage.WitnessSet) (hf : Fits w.vkeys) (hw : ∀ v ∈ w.vkeys, VkeyRep v) : WF (.map w.ser) := by
  unfold WitnessSet.ser vkeysEntry
  split
  · exact WF.map (by simp) (by simp) (by simp)
  · refine WF.map (by simp) (by simp) fun i hi => ?_
    simp only [List.mem_cons, List.not_mem_nil, or_false] at hi
    rcases hi with rfl | rfl
    · exact WF.uint (by omega)
    · refine WF.array (by simpa using fits_lt hf) fun i hi => ?_
      obtain ⟨v, hv, rfl⟩ := List.mem_map.mp hi
      refine WF.array (by simp [VkeyWitness.ser]) fun i hi => ?_
      simp only [VkeyWitness.ser, List.mem_cons, List.not_mem_nil, or_false] at hi
      have := hw v hv
      simp only [VkeyRep] at this
      rcases hi with rfl | rfl <;> exact WF.bstr (by omega)

/-- **C100** (writing).  The bytes of any Babbage transaction the library can hold are read by a CBOR parser, whatever follows
them, as an item that means that transaction without its certificates and without the script references of its outputs, and
nothing else. -/
theorem C100_written (t : Babbage.Tx) (h : BabbageBodyRep t.body) (hf : Fits t.wits.vkeys) (hw : ∀ v ∈ t.wits.vkeys, VkeyRep v)
    (rest : Bytes) :
    ∃ i, parse (t.serialize ++ rest) = some i ∧ ∀ t', BabbageTxMeans i t' ↔ t' = babbageWritten t := by
  refine ⟨.array t.ser, parse_enc_append (.array t.ser) ?_ rest, fun t' => ?_⟩
  · refine WF.array (by simp [Tx.ser]) fun i hi => ?_
    simp only [Tx.ser, List.mem_cons, List.not_mem_nil, or_false] at hi
    rcases hi with rfl | rfl | rfl | rfl
    · exact body_wf _ h
    · exact babbage_wits_wf _ hf hw
    · exact WF.bool
    · exact WF.null
  · have hm : BabbageTxMeans (.array t.ser) (babbageWritten t) :=
      ⟨_, _, rfl, babbage_body_written t.body h, babbage_wits_written t.wits hw⟩
    exact ⟨fun h' => C100_unique _ _ _ h' hm, fun e => e ▸ hm⟩

theorem babbageOutWritten_eq (o : TxOut) : babbageOutWritten o = o ↔ ∀ a n c, o ≠ .post ⟨a, n, some c⟩ := by
  rcases o with _ | ⟨a, n, _ | r⟩ <;> simp [babbageOutWritten]

/-- **C100** (exactly when writing is faithful).  The bytes mean the transaction itself if and only if it has no certificates
and no output has a script reference. -/
theorem C100_faithful_iff (t : Babbage.Tx) (h : BabbageBodyRep t.body) (hf : Fits t.wits.vkeys)
    (hw : ∀ v ∈ t.wits.vkeys, VkeyRep v) (rest : Bytes) :
    (∃ i, parse (t.serialize ++ rest) = some i ∧ BabbageTxMeans i t) ↔
      t.body.certificates = [] ∧ ∀ o ∈ t.body.outputs, ∀ a n c, o ≠ .post ⟨a, n, some c⟩ := by
  obtain ⟨i, hp, hi⟩ := C100_written t h hf hw rest
  have he : t = babbageWritten t ↔ t.body.certificates = [] ∧ ∀ o ∈ t.body.outputs, ∀ a n c, o ≠ .post ⟨a, n, some c⟩ := by
    have : t = babbageWritten t ↔ t.body.certificates = [] ∧ t.body.outputs.map babbageOutWritten = t.body.outputs := by
      obtain ⟨⟨_, _, _, _, _, _⟩, _, _⟩ := t
      simp only [babbageWritten, Tx.mk.injEq, TxBody.mk.injEq, true_and, and_true]
      exact ⟨fun ⟨a, b⟩ => ⟨b, a.symm⟩, fun ⟨a, b⟩ => ⟨b.symm, a⟩⟩
    rw [this, map_eq_self]
    simp only [babbageOutWritten_eq]
  rw [← he]
  constructor
  · rintro ⟨i', hp', hm⟩
    rw [hp] at hp'
    injection hp' with hp'; subst hp'
    exact (hi t).mp hm
  · intro e
    exact ⟨i, hp, (hi t).mpr e⟩

/-! ## The hypotheses can be met -/

/-- A transaction with two inputs, outputs of all kinds, a time to live, a withdrawal and a key witness. -/
def c100Tx (ref : Option Bytes) (cs : List Certificate) : Babbage.Tx where
  body := { inputs := [⟨List.replicate 32 1, 0⟩, ⟨List.replicate 32 1, 7⟩]
            outputs := [.pre ⟨[0x61, 1], 5000000, none⟩, .pre ⟨[0x71, 2], 7, some (List.replicate 32 9)⟩, .post ⟨[0x61, 3], 1, ref⟩]
            fee := 170000, ttl := some 90000000, certificates := cs, withdrawals := [([0xe1, 9], 12)] }
  wits := { vkeys := [⟨List.replicate 32 1, List.replicate 64 2⟩] }

theorem c100Tx_rep (ref : Option Bytes) (cs : List Certificate) : BabbageBodyRep (c100Tx ref cs).body ∧
    Fits (c100Tx ref cs).wits.vkeys ∧ ∀ v ∈ (c100Tx ref cs).wits.vkeys, VkeyRep v := by
  refine ⟨⟨⟨by simp [c100Tx, Fits], by simp only [c100Tx, StrictSorted]; decide +kernel, fun i hi => ?_⟩,
    ⟨by simp [c100Tx, Fits], fun o ho => ?_⟩, by simp [c100Tx, U64], fun t ht => ?_,
    ⟨by simp [c100Tx, Fits], by simp [c100Tx, StrictSorted], fun w hw => ?_⟩⟩, by simp [c100Tx, Fits], fun v hv => ?_⟩
  · simp [c100Tx] at hi; rcases hi with rfl | rfl <;> simp [InRep, U64]
  · simp [c100Tx] at ho; rcases ho with rfl | rfl | rfl <;> simp [BabbageOutRep, Fits, U64]
  · simp [c100Tx] at ht; subst ht; simp [U64]
  · simp [c100Tx] at hw; subst hw; simp [Fits, U64]
  · simp [c100Tx] at hv; subst hv; simp [VkeyRep]

/-- Without certificates and script references its bytes mean it … -/
example : ∃ i, parse (c100Tx none []).serialize = some i ∧ BabbageTxMeans i (c100Tx none []) := by
  have ⟨h1, h2, h3⟩ := c100Tx_rep none []
  have := (C100_faithful_iff _ h1 h2 h3 []).mpr ⟨rfl, fun o ho => by
    simp [c100Tx] at ho; rcases ho with rfl | rfl | rfl <;> simp⟩
  rwa [List.append_nil] at this

/-- … and with either they mean another one. -/
example : ¬ (∃ i, parse (c100Tx (some [1]) []).serialize = some i ∧ BabbageTxMeans i (c100Tx (some [1]) [])) ∧
    ¬ (∃ i, parse (c100Tx none [.stakeReg ⟨.keyHash, List.replicate 28 4⟩]).serialize = some i ∧
      BabbageTxMeans i (c100Tx none [.stakeReg ⟨.keyHash, List.replicate 28 4⟩])) := by
  constructor
  · have ⟨h1, h2, h3⟩ := c100Tx_rep (some [1]) []
    have := C100_faithful_iff _ h1 h2 h3 []
    rw [List.append_nil] at this
    rw [this]
    rintro ⟨-, h⟩
    exact h (.post ⟨[0x61, 3], 1, some [1]⟩) (by simp [c100Tx]) _ _ _ rfl
  · have ⟨h1, h2, h3⟩ := c100Tx_rep none [.stakeReg ⟨.keyHash, List.replicate 28 4⟩]
    have := C100_faithful_iff _ h1 h2 h3 []
    rw [List.append_nil] at this
    rw [this]
    rintro ⟨h, -⟩
    simp [c100Tx] at h

end Cardano.Ledger.Babbage
