import Verif.Props.LedgerCddl

/-! # C65: deserializing arbitrary bytes; C66: bytes bind the content -/

namespace Cardano.Ledger

open Cardano.Cbor Cardano.Spec.Ledger

theorem deserializeArray_defined {α} (f : List Item → Out α) (h : ∀ l, (f l).defined = true) (b : Bytes) :
    (deserializeArray f b).defined = true := by
  unfold deserializeArray
  cases parse b with
  | none => rfl
  | some i =>
    dsimp only
    cases asArray i with
    | none => rfl
    | some l => exact h l

theorem reqLen_defined (e : Exc) (n : Nat) (b : Bytes) : (reqLen e n b).defined = true := by
  unfold reqLen; split <;> rfl

theorem bind_defined {α β} (x : Out α) (f : α → Out β) (hx : x.defined = true) (hf : ∀ a, (f a).defined = true) :
    (x >>= f).defined = true := by
  cases x with
  | ok a => exact hf a
  | throw e => rfl
  | ub => simp [Out.defined] at hx

/-- **C65** (the safe types): for every byte string, deserializing a rational, pool metadata, a
relay, a stake credential, a transaction input or output returns or throws; it never reads out of
bounds or through a null pointer.
Missing: the other types, for which the claim is false of the code (C65_unsafe_types); where exactly is
in the theorems below. -/
theorem C65_safe_types_partial (b : Bytes) :
    (Rational.deserialize b).defined = true ∧ (PoolMetadata.deserialize b).defined = true ∧
    (∀ old, (Relay.deserialize old b).defined = true) ∧ (StakeCredential.deserialize b).defined = true ∧
    (TxIn.deserialize b).defined = true ∧ (TxOut.deserialize b).defined = true := by
  refine ⟨?_, deserializeArray_defined _ ?_ b, fun old => deserializeArray_defined _ ?_ b,
    deserializeArray_defined _ ?_ b, deserializeArray_defined _ ?_ b, deserializeArray_defined _ ?_ b⟩
  · unfold Rational.deserialize deserializeTag
    split
    · rfl
    · unfold Rational.deser
      split
      · rfl
      · split
        · rfl
        · split
          · split <;> rfl
          · rfl
        · rfl
    · rfl
  · intro l
    unfold PoolMetadata.deser
    split
    · split
      · exact bind_defined _ _ (reqLen_defined _ _ _) (fun _ => rfl)
      · rfl
    · rfl
  · intro l
    unfold Relay.deser
    split
    · split
      · rfl
      · split <;> rfl
      · split
        · split <;> rfl
        · rfl
      · split
        · split <;> rfl
        · rfl
      · rfl
    · rfl
  · intro l
    unfold StakeCredential.deser
    split
    · split
      · refine bind_defined _ _ ?_ (fun _ => bind_defined _ _ (reqLen_defined _ _ _) (fun _ => rfl))
        unfold credTypeOf; split <;> rfl
      · rfl
    · rfl
  · intro l
    unfold TxIn.deser
    split
    · split
      · exact bind_defined _ _ (reqLen_defined _ _ _) (fun _ => rfl)
      · rfl
    · rfl
  · intro l
    unfold TxOut.deser
    split
    · split <;> rfl
    · rfl

/-- **C65** fails for the compound types: short inputs that make the library dereference a null
pointer or read past the end of an array. -/
theorem C65_unsafe_types :
    Certificate.deserialize .empty [0x82, 0x05, 0x00] = .ub ∧
    Certificate.deserialize .empty [0x82, 0x06, 0x00] = .ub ∧
    MIR.deserialize [] [0x82, 0x00, 0xa1, 0x00, 0x00] = .ub ∧
    Script.deserialize .empty [0x82, 0x01, 0x81, 0x00] = .ub ∧
    Script.deserialize .empty [0x82, 0x03, 0x02] = .ub ∧
    TxBody.deserialize [0xa1, 0x00, 0x81, 0x00] = .ub ∧
    WitnessSet.deserialize [0xa1, 0x00, 0x81, 0x80] = .ub ∧
    Tx.deserialize {} [0x81, 0xa1, 0x00, 0x81, 0x00] = .ub := by
  refine ⟨?_, ?_, ?_, ?_, ?_, ?_, ?_, ?_⟩ <;> rfl

/-- Credentials in the ledger's format are read without fault. -/
theorem cred_defined (l : List Item) : (StakeCredential.deser l).defined = true := by
  unfold StakeCredential.deser
  split
  · split
    · refine bind_defined _ _ ?_ (fun _ => bind_defined _ _ (reqLen_defined _ _ _) (fun _ => rfl))
      unfold credTypeOf; split <;> rfl
    · rfl
  · rfl

theorem credC_array (i : Item) (h : StakeCredentialC i) : ∃ l, i = .array l := by
  rcases h with ⟨l, h, _⟩ | ⟨l, h, _⟩ <;> exact ⟨l, h⟩

theorem mirLoop_defined (ps : List (Item × Item)) (h : ∀ kv ∈ ps, StakeCredentialC kv.1 ∧ UInt kv.2) :
    (mirLoop (ps.flatMap fun kv => [kv.1, kv.2])).defined = true := by
  induction ps with
  | nil => rfl
  | cons kv ps ih =>
    obtain ⟨h1, n, hn⟩ := h kv (by simp)
    obtain ⟨l, hl⟩ := credC_array _ h1
    have := ih (fun kv hkv => h kv (by simp [hkv]))
    simp only [List.flatMap_cons, List.cons_append, List.nil_append, mirLoop, hl, hn, asArray, asUint, untag,
      deref, Out.ok_bind]
    exact bind_defined _ _ (cred_defined l) (fun _ => bind_defined _ _ this (fun _ => rfl))

theorem mapOut_defined {α β} (f : α → Out β) (l : List α) (h : ∀ a ∈ l, (f a).defined = true) :
    (mapOut f l).defined = true := by
  induction l with
  | nil => rfl
  | cons a l ih =>
    exact bind_defined _ _ (h a (by simp)) fun _ =>
      bind_defined _ _ (ih fun b hb => h b (by simp [hb])) fun _ => rfl

/-- **C65**: certificates in the ledger's own format (C64's CDDL) are read without fault, with the
exception of genesis key delegations, which always are undefined behaviour. -/
theorem C65_ledger_certificates (old : Certificate) (l : List Item) (h : CertificateC (.array l)) :
    ((Certificate.deser old l).defined = true ↔ ¬ ∃ g d v, l = [.uint 5, g, d, v]) ∧
    ((∃ g d v, l = [.uint 5, g, d, v]) → Certificate.deser old l = .ub) := by
  have ub : (∃ g d v, l = [.uint 5, g, d, v]) → Certificate.deser old l = .ub := by
    rintro ⟨g, d, v, rfl⟩
    simp [Certificate.deser, asUint, untag, genesisDeser, Cbor.get, deref, asBstr]
  refine ⟨⟨fun hd he => ?_, fun hne => ?_⟩, ub⟩
  · rw [ub he] at hd; simp [Out.defined] at hd
  · rcases h with h | h | h | h | h | h | h <;> obtain ⟨x, hx, hm⟩ := h <;> (injection hx with hx; subst hx)
    · rcases l with _ | ⟨a, _ | ⟨b, _ | ⟨c, l⟩⟩⟩ <;> simp only [Matches, and_false] at hm
      obtain ⟨rfl, hc, -⟩ := hm
      obtain ⟨x, rfl⟩ := credC_array _ hc
      simp only [Certificate.deser, asUint, untag, credCert, asArray]
      exact bind_defined _ _ (cred_defined x) (fun _ => rfl)
    · rcases l with _ | ⟨a, _ | ⟨b, _ | ⟨c, l⟩⟩⟩ <;> simp only [Matches, and_false] at hm
      obtain ⟨rfl, hc, -⟩ := hm
      obtain ⟨x, rfl⟩ := credC_array _ hc
      simp only [Certificate.deser, asUint, untag, credCert, asArray]
      exact bind_defined _ _ (cred_defined x) (fun _ => rfl)
    · rcases l with _ | ⟨a, _ | ⟨b, _ | ⟨c, _ | ⟨d, l⟩⟩⟩⟩ <;> simp only [Matches, and_false] at hm
      obtain ⟨rfl, hc, ⟨h, rfl, hh⟩, -⟩ := hm
      obtain ⟨x, rfl⟩ := credC_array _ hc
      simp only [Certificate.deser, asUint, untag, delegDeser, asArray, asBstr]
      exact bind_defined _ _ (cred_defined x) (fun _ => bind_defined _ _ (reqLen_defined _ _ _) (fun _ => rfl))
    · have hlen := group_length hm
      obtain ⟨i0, l⟩ := l
      · simp at hlen
      rename_i l
      match l, hlen, hm with
      | [i1, i2, i3, i4, i5, i6, i7, i8, i9], _, hm =>
        simp only [Matches] at hm
        obtain ⟨rfl, ⟨b1, rfl, _⟩, ⟨b2, rfl, _⟩, ⟨n3, rfl⟩, ⟨n4, rfl⟩, ⟨a, b, rfl⟩, ⟨b6, rfl⟩, ⟨l7, rfl, ho⟩, _⟩ := hm
        simp only [Certificate.deser, asUint, untag, poolRegDeser, asArray, asBstr, marginOf, List.head?_cons]
        refine bind_defined _ _ (reqLen_defined _ _ _) fun _ => bind_defined _ _ (reqLen_defined _ _ _) fun _ =>
          bind_defined _ _ ?_ fun _ => bind_defined _ _ ?_ fun _ => rfl
        · simp only [Rational.deser, asArray, asUint, untag]
          split
          · rfl
          · split <;> rfl
        · simp only [ownersOf, Option.bind_some, asArray, untag]
          refine bind_defined _ _ (mapOut_defined _ _ ?_) fun _ => rfl
          intro o hom
          obtain ⟨b, rfl, _⟩ := ho o hom
          simp only [ownerOf, asBstr, untag, deref, Out.ok_bind]
          exact reqLen_defined _ _ _
    · rcases l with _ | ⟨a, _ | ⟨b, _ | ⟨c, _ | ⟨d, l⟩⟩⟩⟩ <;> simp only [Matches, and_false] at hm
      obtain ⟨rfl, ⟨h, rfl, hh⟩, ⟨n, rfl⟩, -⟩ := hm
      simp only [Certificate.deser, asUint, untag, retireDeser, asBstr]
      exact bind_defined _ _ (reqLen_defined _ _ _) (fun _ => rfl)
    · rcases l with _ | ⟨a, _ | ⟨b, _ | ⟨c, _ | ⟨d, _ | ⟨e, l⟩⟩⟩⟩⟩ <;> simp only [Matches, and_false] at hm
      obtain ⟨rfl, -⟩ := hm
      exact absurd ⟨b, c, d, rfl⟩ hne
    · rcases l with _ | ⟨a, _ | ⟨b, _ | ⟨c, l⟩⟩⟩ <;> simp only [Matches, and_false] at hm
      obtain ⟨rfl, ⟨x, rfl, hx⟩, -⟩ := hm
      rcases x with _ | ⟨y, _ | ⟨z, _ | ⟨c, l⟩⟩⟩ <;> simp only [Matches, and_false] at hx
      obtain ⟨hy, ⟨ps, rfl, _, hps⟩, -⟩ := hx
      have key := mirLoop_defined ps hps
      simp only [Certificate.deser, asUint, untag, mirDeser, Cbor.get, deref, List.getElem?_cons_succ,
        List.getElem?_cons_zero, Out.ok_bind, asArray, MIR.deser]
      refine bind_defined _ _ ?_ fun _ => rfl
      rcases hy with rfl | rfl
      · simp only [asUint, asMap, untag, sourceOf, Out.ok_bind]
        exact bind_defined _ _ key fun _ => rfl
      · simp only [asUint, asMap, untag, sourceOf, Out.ok_bind]
        exact bind_defined _ _ key fun _ => rfl

theorem scriptItems_defined (l : List Item) (ih : ∀ s ∈ l, (scriptItem s).defined = true) :
    (scriptItems l).defined = true := by
  induction l with
  | nil => rfl
  | cons a l ih2 =>
    rw [scriptItems]
    exact bind_defined _ _ (ih a (by simp)) fun _ =>
      bind_defined _ _ (ih2 fun s hs => ih s (by simp [hs])) fun _ => rfl

/-- **C65**: native scripts in the ledger's format are read without fault — returned unchanged in
structure or rejected. -/
theorem C65_ledger_scripts (i : Item) (h : MultisigC i) : (scriptItem i).defined = true := by
  induction h with
  | pubkey hh =>
    obtain ⟨b, rfl, _⟩ := hh
    simp only [scriptItem, scriptData, asUint, untag, pubkeyDeser, asBstr]
    exact bind_defined _ _ (reqLen_defined _ _ _) fun _ => rfl
  | @all l _ ih =>
    simp only [scriptItem, scriptData, asUint, untag, List.isEmpty_nil, if_true, scriptList]
    refine bind_defined _ _ ?_ fun _ => rfl
    exact scriptItems_defined l ih
  | @any l _ ih =>
    simp only [scriptItem, scriptData, asUint, untag, List.isEmpty_nil, if_true, scriptList]
    refine bind_defined _ _ ?_ fun _ => rfl
    exact scriptItems_defined l ih
  | nOfK _ _ => rfl

/-! ## C66 -/

theorem enc_inj (i j : Item) (hi : WF i) (hj : WF j) (h : enc i = enc j) : i = j := by
  have := parse_enc i hi
  rw [h, parse_enc j hj] at this
  exact (Option.some.inj this).symm

theorem in_ser_inj (a b : TxIn) (h : Item.array a.ser = Item.array b.ser) : a = b := by
  cases a; cases b; simp_all [TxIn.ser]

theorem out_ser_inj (a b : TxOut) (h : Item.array a.ser = Item.array b.ser) : a = b := by
  cases a; cases b; simp_all [TxOut.ser]

theorem map_inj {α β} (f : α → β) (hf : ∀ a b, f a = f b → a = b) : ∀ l m : List α, l.map f = m.map f → l = m
  | [], [], _ => rfl
  | [], _ :: _, h => by simp at h
  | _ :: _, [], h => by simp at h
  | a :: l, b :: m, h => by
    simp only [List.map_cons, List.cons.injEq] at h
    rw [hf a b h.1, map_inj f hf l m h.2]

theorem withdrawalItems_inj (a b : List (Bytes × Nat)) (h : withdrawalItems a = withdrawalItems b) : a = b := by
  rw [withdrawalItems_flat, withdrawalItems_flat] at h
  refine map_inj _ ?_ _ _ (flat_inj _ _ h)
  rintro ⟨x, y⟩ ⟨x', y'⟩ e
  simp_all

theorem pairs_lookup (ps : List (Nat × Item)) (qs : List (Nat × Item)) (h : ps = qs) (k : Nat) :
    ps.lookup k = qs.lookup k := by rw [h]

/-- **C66**: two Shelley bodies with the same bytes have the same inputs, outputs, fee, time to
live, withdrawals and metadata hash, and their certificates have the same serialized form — so
the transaction id (a hash of these bytes) commits to all of them.
Missing: the certificates themselves, which the bytes do not bind (C66_certificates_not_bound) unless
they are preserved (C66_preserved_bodies). -/
theorem C66_body_bytes_bind_partial (b c : TxBody) (hb : BodyRep b) (hc : BodyRep c) (s : Bytes)
    (h1 : b.serialize = .ok s) (h2 : c.serialize = .ok s) :
    b.inputs = c.inputs ∧ b.outputs = c.outputs ∧ b.fee = c.fee ∧ b.ttl = c.ttl ∧
    b.withdrawals = c.withdrawals ∧ b.metadataHash = c.metadataHash ∧
    mapOut Certificate.ser b.certificates = mapOut Certificate.ser c.certificates := by
  unfold TxBody.serialize at h1 h2
  obtain ⟨l, hl, e⟩ := Out.bind_eq_ok.mp h1
  obtain ⟨m, hm, e'⟩ := Out.bind_eq_ok.mp h2
  simp only [Out.ok.injEq] at e e'
  have hi := enc_inj _ _ (body_wf b hb l hl) (body_wf c hc m hm) (e.trans e'.symm)
  injection hi with hi
  obtain ⟨cs, hcs, rfl⟩ := body_ser_ok b l hl
  obtain ⟨ds, hds, rfl⟩ := body_ser_ok c m hm
  rw [← bodyPairs_flat, ← bodyPairs_flat] at hi
  have hp := flatk_inj _ _ hi
  have hl := pairs_lookup _ _ hp
  have e0 := hl 0; have e1 := hl 1; have e2 := hl 2; have e3 := hl 3
  have e4 := hl 4; have e5 := hl 5; have e7 := hl 7
  simp [bodyPairs, List.lookup] at e0 e1 e2 e3
  have lb : ∀ (b : TxBody) (cs : List (List Item)),
      (bodyPairs b cs).lookup 4 = (if b.certificates = [] then none else some (.array (cs.map .array))) ∧
      (bodyPairs b cs).lookup 5 = (if b.withdrawals = [] then none else some (.map (withdrawalItems b.withdrawals))) ∧
      (bodyPairs b cs).lookup 7 = b.metadataHash.map .bstr := by
    intro b cs
    unfold bodyPairs
    by_cases h1 : b.certificates = [] <;> by_cases h2 : b.withdrawals = [] <;> cases h3 : b.metadataHash <;>
      simp [h1, h2, List.lookup]
  rw [(lb b cs).1, (lb c ds).1] at e4
  rw [(lb b cs).2.1, (lb c ds).2.1] at e5
  rw [(lb b cs).2.2, (lb c ds).2.2] at e7
  refine ⟨?_, ?_, e2, e3, ?_, ?_, ?_⟩
  · refine map_inj (fun i : TxIn => Item.array i.ser) in_ser_inj _ _ ?_
    exact e0
  · refine map_inj (fun i : TxOut => Item.array i.ser) out_ser_inj _ _ ?_
    exact e1
  · by_cases x : b.withdrawals = [] <;> by_cases y : c.withdrawals = []
    · rw [x, y]
    · simp [x, y] at e5
    · simp [x, y] at e5
    · simp only [x, y, if_false, Option.some.injEq, Item.map.injEq] at e5
      exact withdrawalItems_inj _ _ e5
  · cases x : b.metadataHash <;> cases y : c.metadataHash <;> simp_all
  · rw [hcs, hds]
    by_cases x : b.certificates = [] <;> by_cases y : c.certificates = []
    · rw [x] at hcs; rw [y] at hds
      simp only [mapOut, Out.ok.injEq] at hcs hds
      rw [← hcs, ← hds]
    · simp [x, y] at e4
    · simp [x, y] at e4
    · simp only [x, y, if_false, Option.some.injEq, Item.array.injEq] at e4
      rw [map_inj Item.array (fun a b h => by injection h) _ _ e4]

/-- Among preserved bodies (C43) equal bytes means equal bodies. -/
theorem C66_preserved_bodies (b c : TxBody) (hb : BodyRep b) (hc : BodyRep c) (pb : BodyPreserved b)
    (pc : BodyPreserved c) (h : b.serialize = c.serialize) : b = c := by
  obtain ⟨s, hs, hd⟩ := (C43_body_iff_partial b hb).mpr pb
  obtain ⟨t, ht, hd'⟩ := (C43_body_iff_partial c hc).mpr pc
  rw [hs, ht] at h
  obtain rfl := Out.ok.inj h
  have := hd []
  rw [hd' []] at this
  exact (Out.ok.inj this).symm

/-- **C66** fails for certificates: two different certificates may have the same bytes (here an
IPv6 address that is dropped, and an owner list and relay list that are both left out). -/
theorem C66_certificates_not_bound : ∃ r r' : Relay, RelayRep r ∧ RelayRep r' ∧ r ≠ r' ∧
    r.serialize = r'.serialize ∧ r.serialize.isOk = true := by
  refine ⟨.addr (some [1, 2, 3, 4]) (some (List.replicate 16 0)) none, .addr (some [1, 2, 3, 4]) none none,
    by simp [RelayRep], by simp [RelayRep], by simp, rfl, rfl⟩

/-! ## Babbage -/

namespace Babbage

/-- Entries of the Babbage body map. -/
def pairs (b : Babbage.TxBody) : List (Nat × Item) :=
  [(0, .array (b.inputs.map fun i => .array i.ser)), (1, .array (b.outputs.map TxOut.ser)), (2, .uint b.fee)]
  ++ (b.ttl.elim [] fun t => [(3, .uint t)])
  ++ (if b.withdrawals = [] then [] else [(5, .map (withdrawalItems b.withdrawals))])

theorem pairs_flat (b : Babbage.TxBody) :
    (pairs b).flatMap (fun kv => [Item.uint kv.1, kv.2]) = b.ser := by
  unfold pairs TxBody.ser withdrawalsEntry
  by_cases h2 : b.withdrawals = [] <;> cases h3 : b.ttl <;> simp [h2, ttlEntry]

theorem outC (o : TxOut) (h : BabbageOutRep o) : PreOutC o.ser ∨ PostOutC o.ser := by
  cases o with
  | pre o =>
    left
    cases hd : o.datumHash with
    | none =>
      exact Or.inl ⟨[.bstr o.address, .uint o.amount], by simp [TxOut.ser, PreOut.ser, hd, datumItem], ⟨_, rfl⟩, ⟨_, rfl⟩, trivial⟩
    | some x =>
      exact Or.inr ⟨[.bstr o.address, .uint o.amount, .bstr x], by simp [TxOut.ser, PreOut.ser, hd, datumItem], ⟨_, rfl⟩, ⟨_, rfl⟩,
        ⟨_, rfl, h.2.2 x hd⟩, trivial⟩
  | post o =>
    right
    refine ⟨[(0, .bstr o.address), (1, .uint o.amount)], by simp [TxOut.ser, PostOut.ser], by simp, ?_, by simp⟩
    intro kv hkv
    simp only [List.mem_cons, List.not_mem_nil, or_false] at hkv
    rcases hkv with rfl | rfl
    · exact ⟨BytesAny, by simp, _, rfl⟩
    · exact ⟨UInt, by simp, _, rfl⟩

/-- **C64** (Babbage): every Babbage transaction the library writes conforms to the era's CDDL. -/
theorem C64_babbage_transaction (t : Babbage.Tx) (h : BabbageBodyRep t.body)
    (hw : ∀ v ∈ t.wits.vkeys, VkeyRep v) : BabbageTxC (.array t.ser) := by
  obtain ⟨⟨_, hi1, hi2⟩, ⟨_, ho⟩, _, ht, ⟨_, hws, _⟩⟩ := h
  refine ⟨_, rfl, ?_, ?_, ⟨_, rfl⟩, trivial, trivial⟩
  · refine ⟨pairs t.body, by rw [pairs_flat], ?_, ?_, ?_⟩
    · unfold pairs
      by_cases h2 : t.body.withdrawals = [] <;> cases h3 : t.body.ttl <;> simp [h2]
    · intro kv hkv
      simp only [pairs, List.mem_append, List.mem_cons, List.not_mem_nil, or_false] at hkv
      rcases hkv with ((rfl | rfl | rfl) | hkv) | hkv
      · exact ⟨fun i => ∃ l, i = .array l ∧ l.Nodup ∧ ∀ x ∈ l, TxInC x, by simp, _, rfl, inputsC _ hi1 hi2⟩
      · refine ⟨ArrayOf fun i => PreOutC i ∨ PostOutC i, by simp, _, rfl, ?_⟩
        intro x hx
        obtain ⟨o, ho', rfl⟩ := List.mem_map.mp hx
        exact outC o (ho o ho')
      · exact ⟨UInt, by simp, _, rfl⟩
      · cases h3 : t.body.ttl with
        | none => rw [h3] at hkv; simp at hkv
        | some x =>
          rw [h3] at hkv
          simp only [Option.elim_some, List.mem_singleton] at hkv; subst hkv
          exact ⟨UInt, by simp, _, rfl⟩
      · split at hkv
        · simp at hkv
        · simp only [List.mem_singleton] at hkv; subst hkv
          exact ⟨MapOf BytesAny UInt, by simp, withdrawalsC _ hws⟩
    · intro r hr
      simp only [List.mem_cons, List.not_mem_nil, or_false] at hr
      rcases hr with rfl | rfl | rfl <;> simp [pairs]
  · refine ⟨if t.wits.vkeys = [] then [] else [(0, .array (t.wits.vkeys.map fun v => .array v.ser))], ?_, ?_, ?_, by simp⟩
    · unfold WitnessSet.ser vkeysEntry
      split <;> simp
    · split <;> simp
    · intro kv hkv
      split at hkv
      · simp at hkv
      · simp only [List.mem_singleton] at hkv; subst hkv
        refine ⟨ArrayOf (Group [BytesN 32, BytesN 64]), by simp, _, rfl, ?_⟩
        intro x hx
        obtain ⟨v, hv, rfl⟩ := List.mem_map.mp hx
        exact ⟨_, rfl, ⟨_, rfl, (hw v hv).1⟩, ⟨_, rfl, (hw v hv).2⟩, trivial⟩

/-- **C64** (Babbage): a script reference is written as `#6.24(bytes .cbor script)`: the tag (D8 18) and the script's own
CBOR as one byte string. -/
theorem C64_script_ref (script : Bytes) :
    enc (scriptRefItem script) = [0xD8, 0x18] ++ enc (.bstr script) := by
  have h : encHeader 6 24 = [0xD8, 0x18] := by decide +kernel
  have e : enc (scriptRefItem script) = encHeader 6 24 ++ enc (.bstr script) := by simp only [scriptRefItem, enc]
  rw [e, h]

/-- **C43** fails for Babbage: no byte string can be read back into a transaction. -/
theorem C43_babbage_not_readable (b : Bytes) : Babbage.Tx.deserialize b = .throw .runtimeError := by
  unfold Tx.deserialize deserializeArray
  cases parse b with
  | none => rfl
  | some i =>
    dsimp only
    cases asArray i <;> rfl

theorem out_wf (o : TxOut) (h : BabbageOutRep o) : WF o.ser := by
  cases o with
  | pre o =>
    refine WF.array (by cases hd : o.datumHash <;> simp [datumItem]) ?_
    intro i hi
    simp only [List.mem_append, List.mem_cons, List.not_mem_nil, or_false] at hi
    rcases hi with (rfl | rfl) | hi
    · exact WF.bstr (fits_lt h.1)
    · exact WF.uint h.2.1
    · cases hd : o.datumHash with
      | none => rw [hd] at hi; simp [datumItem] at hi
      | some x =>
        rw [hd] at hi
        simp only [datumItem, List.mem_singleton] at hi; subst hi
        exact WF.bstr (by have := h.2.2 x hd; omega)
  | post o =>
    refine WF.map (by simp) (by simp) ?_
    intro i hi
    simp only [List.mem_cons, List.not_mem_nil, or_false] at hi
    rcases hi with rfl | rfl | rfl | rfl
    · exact WF.uint (by omega)
    · exact WF.bstr (fits_lt h.1)
    · exact WF.uint (by omega)
    · exact WF.uint h.2

theorem body_wf (b : Babbage.TxBody) (h : BabbageBodyRep b) : WF (.map b.ser) := by
  obtain ⟨⟨hi1, _, hi2⟩, ⟨ho1, ho2⟩, hf, ht, ⟨hw1, _, hw2⟩⟩ := h
  have w : (withdrawalsEntry b.withdrawals).length = 0 ∨ (withdrawalsEntry b.withdrawals).length = 2 := by
    unfold withdrawalsEntry; split <;> simp
  have m : (ttlEntry b.ttl).length = 0 ∨ (ttlEntry b.ttl).length = 2 := by
    cases b.ttl <;> simp [ttlEntry]
  refine WF.map ?_ ?_ ?_
  · simp only [TxBody.ser, List.length_append, List.length_cons, List.length_nil]; omega
  · simp only [TxBody.ser, List.length_append, List.length_cons, List.length_nil]; omega
  · intro i hi
    simp only [TxBody.ser, List.mem_append, List.mem_cons, List.not_mem_nil, or_false] at hi
    rcases hi with (h | h) | h
    · rcases h with rfl | rfl | rfl | rfl | rfl | rfl
      · exact WF.uint (by omega)
      · refine WF.array (by simpa using fits_lt hi1) ?_
        intro i hi
        obtain ⟨x, hx, rfl⟩ := List.mem_map.mp hi
        exact in_wf x (hi2 x hx)
      · exact WF.uint (by omega)
      · refine WF.array (by simpa using fits_lt ho1) ?_
        intro i hi
        obtain ⟨x, hx, rfl⟩ := List.mem_map.mp hi
        exact out_wf x (ho2 x hx)
      · exact WF.uint (by omega)
      · exact WF.uint hf
    · cases hb : b.ttl with
      | none => rw [hb] at h; simp [ttlEntry] at h
      | some x =>
        rw [hb] at h
        simp only [ttlEntry, List.mem_cons, List.not_mem_nil, or_false] at h
        rcases h with rfl | rfl
        · exact WF.uint (by omega)
        · exact WF.uint (ht x hb)
    · unfold withdrawalsEntry at h
      split at h
      · simp at h
      · simp only [List.mem_cons, List.not_mem_nil, or_false] at h
        rcases h with rfl | rfl
        · exact WF.uint (by omega)
        · exact WF.map (by rw [withdrawalItems_length]; exact hw1) (by rw [withdrawalItems_length]; omega)
            (withdrawalItems_wf _ hw2)

/-- An output up to the part that is not written. -/
def written : TxOut → TxOut
  | .pre o => .pre o
  | .post o => .post { o with scriptRef := none }

theorem out_ser_inj (a b : TxOut) (h : a.ser = b.ser) : written a = written b := by
  cases a with
  | pre a =>
    cases b with
    | pre b =>
      obtain ⟨x, y, z⟩ := a; obtain ⟨x', y', z'⟩ := b
      cases z <;> cases z' <;> simp_all [TxOut.ser, PreOut.ser, datumItem]
    | post b => simp [TxOut.ser, PreOut.ser, PostOut.ser] at h
  | post a =>
    cases b with
    | pre b => simp [TxOut.ser, PreOut.ser, PostOut.ser] at h
    | post b => obtain ⟨x, y, z⟩ := a; obtain ⟨x', y', z'⟩ := b; simp_all [TxOut.ser, PostOut.ser, written]

/-- **C66** (Babbage): equal body bytes mean equal inputs, outputs (up to script references, which
are not written), fee, ttl and withdrawals. -/
theorem C66_babbage_bytes_bind (b c : Babbage.TxBody) (hb : BabbageBodyRep b) (hc : BabbageBodyRep c)
    (h : b.serialize = c.serialize) :
    b.inputs = c.inputs ∧ b.outputs.map written = c.outputs.map written ∧ b.fee = c.fee ∧ b.ttl = c.ttl ∧
      b.withdrawals = c.withdrawals := by
  have hi := enc_inj _ _ (body_wf b hb) (body_wf c hc) h
  injection hi with hi
  rw [← pairs_flat, ← pairs_flat] at hi
  have hl := pairs_lookup _ _ (flatk_inj _ _ hi)
  have e0 := hl 0; have e1 := hl 1; have e2 := hl 2; have e3 := hl 3; have e5 := hl 5
  simp [pairs, List.lookup] at e0 e1 e2
  have lb : ∀ (b : Babbage.TxBody), (pairs b).lookup 3 = b.ttl.map .uint ∧
      (pairs b).lookup 5 = (if b.withdrawals = [] then none else some (.map (withdrawalItems b.withdrawals))) := by
    intro b
    unfold pairs
    by_cases h2 : b.withdrawals = [] <;> cases h3 : b.ttl <;> simp [h2, List.lookup]
  rw [(lb b).1, (lb c).1] at e3
  rw [(lb b).2, (lb c).2] at e5
  refine ⟨map_inj (fun i : TxIn => Item.array i.ser) in_ser_inj _ _ e0, ?_, e2, ?_, ?_⟩
  · have : ∀ l m : List TxOut, l.map TxOut.ser = m.map TxOut.ser → l.map written = m.map written := by
      intro l
      induction l with
      | nil => intro m h; cases m <;> simp_all
      | cons a l ih =>
        intro m h
        cases m with
        | nil => simp at h
        | cons b m =>
          simp only [List.map_cons, List.cons.injEq] at h ⊢
          exact ⟨out_ser_inj a b h.1, ih m h.2⟩
    exact this _ _ e1
  · cases x : b.ttl <;> cases y : c.ttl <;> simp_all
  · by_cases x : b.withdrawals = [] <;> by_cases y : c.withdrawals = []
    · rw [x, y]
    · simp [x, y] at e5
    · simp [x, y] at e5
    · simp only [x, y, if_false, Option.some.injEq, Item.map.injEq] at e5
      exact withdrawalItems_inj _ _ e5

/-- **C66** fails for Babbage certificates: they are not part of the bytes at all, so a signed
transaction does not commit to them (and the ledger never sees them). -/
theorem C66_babbage_certificates_dropped (b : Babbage.TxBody) (cs : List Certificate) :
    { b with certificates := cs }.serialize = b.serialize := rfl

example : BabbageBodyRep
    { inputs := [⟨List.replicate 32 1, 0⟩]
      outputs := [.pre ⟨[0x61], 5, none⟩]
      fee := 7
      ttl := some 9 } := by
  simp [BabbageBodyRep, Fits, StrictSorted, InRep, U64, BabbageOutRep]

end Babbage

end Cardano.Ledger
