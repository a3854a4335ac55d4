import Verif.Props.Ledger

/-! # C43, C44: CBOR round trips of certificates and transactions -/

namespace Cardano.Ledger

open Cardano.Cbor Cardano.Spec.Ledger

/-! ## C44: certificates -/

theorem owners_deser (os : List Bytes) (hs : StrictSorted bytesLt os) (h : ∀ o ∈ os, o.length = 28) :
    ownersOf (some (.array (os.map .bstr))) = .ok os := by
  unfold ownersOf
  simp only [Option.bind_some, asArray, untag]
  rw [mapOut_map, mapOut_ok (fun a => ownerOf (.bstr a)) id]
  · simp only [List.map_id, Out.ok_bind]
    rw [foldl_setInsert_sorted bytesLt_order os hs]
  · intro o ho
    simp [ownerOf, asBstr, untag, deref, reqLen, h o ho]

/-- The pool certificate's fixed part, with whatever follows it. -/
theorem poolReg_deser (p : PoolParams) (h : PoolRep p) (rest : List Item) :
    poolRegDeser (.uint 3 :: .bstr p.operator :: .bstr p.vrfKeyHash :: .uint p.pledge :: .uint p.cost ::
        p.margin.ser :: .bstr p.rewardAccount :: rest) =
      if p.margin.den = 0 then .throw .runtimeError
      else (ownersOf rest.head?).bind fun os =>
        .ok (.poolReg { p with owners := os, relays := [], metadata := none }) := by
  obtain ⟨h1, h2, -⟩ := h
  simp only [poolRegDeser, asBstr, asUint, asArray, untag, Rational.ser, reqLen, h1, h2, if_true,
    Out.ok_bind, marginOf, Rational.deser]
  by_cases hd : p.margin.den = 0
  · simp [hd]
  · simp only [hd, if_false, ne_eq, not_true_eq_false, Out.ok_bind]
    cases ownersOf rest.head? <;> rfl

/-- What comes back for each certificate kind. -/
theorem cert_deser (old c : Certificate) (h : CertRep c) :
    (c.ser >>= Certificate.deser old) = match c with
      | .empty => .throw .runtimeError
      | .poolReg p => p.ser >>= fun l => poolRegDeser (.uint 3 :: l)
      | .genesisDeleg _ _ _ => .ub
      | c => .ok c := by
  cases c with
  | empty => rfl
  | stakeReg c => simp [Certificate.ser, Certificate.deser, asUint, untag, credCert, asArray, cred_deser c h]
  | stakeDereg c => simp [Certificate.ser, Certificate.deser, asUint, untag, credCert, asArray, cred_deser c h]
  | delegation c pool =>
    simp [Certificate.ser, Certificate.deser, asUint, untag, delegDeser, asArray, cred_deser c h.1, asBstr, reqLen, h.2]
  | poolReg p =>
    simp only [Certificate.ser]
    cases hp : p.ser with
    | ok l =>
      obtain ⟨rs, _, rfl⟩ := pool_ser_ok p l hp
      simp [Certificate.deser, asUint, untag]
    | throw e => rfl
    | ub => rfl
  | poolRetire pool epoch =>
    simp [Certificate.ser, Certificate.deser, asUint, untag, retireDeser, asBstr, reqLen, h.1]
  | genesisDeleg g d v =>
    simp [Certificate.ser, Certificate.deser, asUint, untag, genesisDeser, Cbor.get, deref, asBstr]
  | mir m =>
    simp only [Certificate.ser, Out.ok_bind, Certificate.deser, asUint, untag, mirDeser, Cbor.get, deref,
      List.getElem?_cons_succ, List.getElem?_cons_zero, asArray]
    rw [mir_deser [] m (fun e he => (h.2 e he).1)]
    rfl

theorem relays_none (p : PoolParams) (l : List Item) (h : p.ser = .ok l) (hr : p.relays = []) :
    l = [.bstr p.operator, .bstr p.vrfKeyHash, .uint p.pledge, .uint p.cost, p.margin.ser,
        .bstr p.rewardAccount] ++ ownersItem p.owners ++ metadataItem p.metadata := by
  obtain ⟨rs, _, rfl⟩ := pool_ser_ok p l h
  simp [hr]

/-- The elements after the six fixed parameters. -/
def poolTail (p : PoolParams) (rs : List (List Item)) : List Item :=
  ownersItem p.owners ++ (if p.relays = [] then [] else [.array (rs.map .array)]) ++ metadataItem p.metadata

theorem pool_back (p : PoolParams) (h : PoolRep p) (l : List Item) (hs : p.ser = .ok l) :
    ∃ rs, mapOut Relay.ser p.relays = .ok rs ∧ poolRegDeser (.uint 3 :: l) =
      if p.margin.den = 0 then .throw .runtimeError
      else (ownersOf (poolTail p rs).head?).bind fun os =>
        .ok (.poolReg { p with owners := os, relays := [], metadata := none }) := by
  obtain ⟨rs, h1, rfl⟩ := pool_ser_ok p l hs
  refine ⟨rs, h1, ?_⟩
  have := poolReg_deser p h (poolTail p rs)
  rw [← this]
  simp [poolTail]

theorem cert_bytes (old c : Certificate) (h : CertRep c) (rest : Bytes) :
    (c.serialize >>= fun b => Certificate.deserialize old (b ++ rest)) = (c.ser >>= Certificate.deser old) := by
  unfold Certificate.serialize
  cases hs : c.ser with
  | ok l =>
    simp only [Out.ok_bind]
    exact deserializeArray_enc _ _ _ (cert_wf c h l hs)
  | throw e => rfl
  | ub => rfl

/-- Item level: a certificate is read back unchanged iff it is one of the preserved ones. -/
theorem cert_item_iff (old c : Certificate) (h : CertRep c) :
    (c.ser >>= Certificate.deser old) = .ok c ↔ CertPreserved c := by
  rw [cert_deser old c h]
  cases c with
  | empty => simp [CertPreserved]
  | stakeReg c => simp [CertPreserved]
  | stakeDereg c => simp [CertPreserved]
  | delegation c p => simp [CertPreserved]
  | poolRetire p e => simp [CertPreserved]
  | genesisDeleg g d v => simp [CertPreserved]
  | mir m => simp [CertPreserved]
  | poolReg p =>
    simp only [CertPreserved, Out.bind_eq_ok]
    constructor
    · rintro ⟨l, hl, hd⟩
      obtain ⟨rs, _, hb⟩ := pool_back p h l hl
      rw [hb] at hd
      by_cases hz : p.margin.den = 0
      · simp [hz] at hd
      · rw [if_neg hz] at hd
        cases ho : ownersOf (poolTail p rs).head? with
        | ok os =>
          rw [ho] at hd
          simp only [Out.bind, Out.ok.injEq, Certificate.poolReg.injEq] at hd
          refine ⟨?_, ?_, hz⟩
          · rw [← hd]
          · rw [← hd]
        | throw e => rw [ho] at hd; simp [Out.bind] at hd
        | ub => rw [ho] at hd; simp [Out.bind] at hd
    · rintro ⟨hr, hm, hz⟩
      have hs : ∃ l, p.ser = .ok l := by
        unfold PoolParams.ser relaysItem; rw [if_pos hr]; exact ⟨_, rfl⟩
      obtain ⟨l, hl⟩ := hs
      refine ⟨l, hl, ?_⟩
      obtain ⟨rs, _, hb⟩ := pool_back p h l hl
      rw [hb, if_neg hz]
      have ho : ownersOf (poolTail p rs).head? = .ok p.owners := by
        unfold poolTail ownersItem
        by_cases he : p.owners = []
        · simp [he, hr, hm, metadataItem, ownersOf]
        · simp only [he, if_false, List.append_assoc, List.cons_append, List.head?_cons]
          exact owners_deser _ h.2.2.2.2.2.2.1.2.1 h.2.2.2.2.2.2.1.2.2
      rw [ho]
      simp only [Out.bind, Out.ok.injEq, Certificate.poolReg.injEq]
      rw [← hr, ← hm]

/-- **C44**, exact: a certificate serializes and comes back unchanged, whatever object it is
read into and whatever follows, if and only if it is a stake registration, deregistration,
delegation, pool retirement, MIR certificate, or a pool registration without relays and without
metadata whose margin has a nonzero denominator. -/
theorem C44_roundtrip_iff_partial (c : Certificate) (h : CertRep c) :
    (∃ b, c.serialize = .ok b ∧ ∀ old rest, Certificate.deserialize old (b ++ rest) = .ok c) ↔
      CertPreserved c := by
  constructor
  · rintro ⟨b, hb, hd⟩
    have := cert_bytes .empty c h []
    rw [hb, Out.ok_bind, hd] at this
    exact (cert_item_iff .empty c h).mp this.symm
  · intro hp
    have hi := fun old => (cert_item_iff old c h).mpr hp
    have : ∃ l, c.ser = .ok l := by
      obtain ⟨l, hl, _⟩ := Out.bind_eq_ok.mp (hi .empty); exact ⟨l, hl⟩
    obtain ⟨l, hl⟩ := this
    have hb : c.serialize = .ok (encArray l) := by unfold Certificate.serialize; rw [hl]; rfl
    refine ⟨encArray l, hb, fun old rest => ?_⟩
    have := cert_bytes old c h rest
    rw [hb, Out.ok_bind, hi old] at this
    exact this

/-- **C44** fails for genesis key delegations: reading back their own serialization
dereferences a null pointer (the type number is read as a byte string). -/
theorem C44_genesis_delegation_ub (g d v : Bytes) (h : CertRep (.genesisDeleg g d v)) (old : Certificate) (rest : Bytes) :
    ∃ b, (Certificate.genesisDeleg g d v).serialize = .ok b ∧ Certificate.deserialize old (b ++ rest) = .ub := by
  have := cert_bytes old _ h rest
  rw [cert_deser old _ h] at this
  exact ⟨_, rfl, by simpa [Certificate.serialize, Certificate.ser] using this⟩

theorem ownersOf_ub (i : Item) (l : List Item) (h : asBstr i = none) :
    ownersOf (some (.array (i :: l))) = .ub := by
  simp [ownersOf, asArray, untag, mapOut, ownerOf, h, deref]

/-- **C44** fails for pool registrations with relays or metadata: with at least one owner they
come back without relays and metadata; without owners the relays (or the metadata) sit where the
owners are expected, and reading them dereferences a null pointer.  An empty-array relay list
element cannot occur, so this covers every serializable registration that is not preserved. -/
theorem C44_pool_registration_lossy (p : PoolParams) (h : CertRep (.poolReg p)) (b : Bytes)
    (hb : (Certificate.poolReg p).serialize = .ok b) (old : Certificate) (rest : Bytes)
    (hd : p.margin.den ≠ 0) :
    (p.owners ≠ [] → Certificate.deserialize old (b ++ rest) =
      .ok (.poolReg { p with relays := [], metadata := none })) ∧
    (p.owners = [] → (p.relays ≠ [] ∨ p.metadata ≠ none) →
      Certificate.deserialize old (b ++ rest) = .ub) := by
  have hh : PoolRep p := h
  have key := cert_bytes old _ h rest
  rw [cert_deser old _ h, hb, Out.ok_bind] at key
  simp only at key
  have : ∃ l, p.ser = .ok l := by
    unfold Certificate.serialize Certificate.ser at hb
    simp only [Out.bind_eq_ok] at hb
    obtain ⟨_, ⟨l, hl, _⟩, _⟩ := hb
    exact ⟨l, hl⟩
  obtain ⟨l, hl⟩ := this
  obtain ⟨rs, hrs, hback⟩ := pool_back p hh l hl
  rw [hl, Out.ok_bind, hback, if_neg hd] at key
  rw [key]
  constructor
  · intro ho
    have : ownersOf (poolTail p rs).head? = .ok p.owners := by
      unfold poolTail ownersItem
      simp only [ho, if_false, List.append_assoc, List.cons_append, List.head?_cons]
      exact owners_deser _ hh.2.2.2.2.2.2.1.2.1 hh.2.2.2.2.2.2.1.2.2
    rw [this]; rfl
  · intro ho hor
    have : ownersOf (poolTail p rs).head? = .ub := by
      unfold poolTail ownersItem
      by_cases hr : p.relays = []
      · have hm : p.metadata ≠ none := by rcases hor with h | h; exact absurd hr h; exact h
        cases hm' : p.metadata with
        | none => exact absurd hm' hm
        | some m =>
          simp only [ho, hr, if_true, List.nil_append, metadataItem, PoolMetadata.ser, List.head?_cons]
          exact ownersOf_ub _ _ rfl
      · simp only [ho, hr, if_true, if_false, List.nil_append, List.cons_append, List.head?_cons]
        obtain ⟨hlen, _⟩ := relays_ok _ _ hrs
        cases rs with
        | nil => simp at hlen; exact absurd (List.length_eq_zero_iff.mp hlen.symm) hr
        | cons x xs => exact ownersOf_ub _ _ rfl
    rw [this]; rfl

/-- A pool registration with a relay that has only an IPv6 address cannot be serialized. -/
theorem C44_ipv6_relay_unserializable (p : PoolParams) (v6 : Bytes) (port : Option Nat) (rs : List Relay)
    (h : p.relays = .addr none (some v6) port :: rs) :
    (Certificate.poolReg p).serialize = .throw .badOptional := by
  simp [Certificate.serialize, Certificate.ser, PoolParams.ser, relaysItem, h, mapOut, Relay.ser]

/-! ## C43: inputs, outputs, bodies, witness sets, transactions -/

theorem in_deser (i : TxIn) (h : InRep i) : TxIn.deser i.ser = .ok i := by
  simp [TxIn.deser, TxIn.ser, asBstr, asUint, untag, reqLen, h.1]

theorem out_deser (o : TxOut) : TxOut.deser o.ser = .ok o := by
  simp [TxOut.deser, TxOut.ser, asBstr, asUint, untag]

/-- **C43** (inputs): every input round trips. -/
theorem C43_input (i : TxIn) (h : InRep i) (rest : Bytes) : TxIn.deserialize (i.serialize ++ rest) = .ok i := by
  unfold TxIn.deserialize TxIn.serialize
  rw [deserializeArray_enc _ _ _ (in_wf i h), in_deser i h]

/-- **C43** (outputs): every output round trips. -/
theorem C43_output (o : TxOut) (h : OutRep o) (rest : Bytes) : TxOut.deserialize (o.serialize ++ rest) = .ok o := by
  unfold TxOut.deserialize TxOut.serialize
  rw [deserializeArray_enc _ _ _ (out_wf o h), out_deser o]

theorem body_ser_ok (b : TxBody) (l : List Item) (h : b.ser = .ok l) :
    ∃ cs, mapOut Certificate.ser b.certificates = .ok cs ∧
      l = [.uint 0, .array (b.inputs.map fun i => .array i.ser),
        .uint 1, .array (b.outputs.map fun o => .array o.ser),
        .uint 2, .uint b.fee, .uint 3, .uint b.ttl]
       ++ (if b.certificates = [] then [] else [.uint 4, .array (cs.map .array)])
       ++ withdrawalsEntry b.withdrawals ++ metadataEntry b.metadataHash := by
  unfold TxBody.ser certsEntry at h
  by_cases e : b.certificates = []
  · rw [if_pos e] at h
    refine ⟨[], by rw [e]; rfl, ?_⟩
    simp only [Out.ok_bind, Out.ok.injEq] at h
    rw [← h, if_pos e]
  · rw [if_neg e] at h
    simp only [Out.bind_eq_ok] at h
    obtain ⟨x, ⟨cs, h1, h2⟩, h3⟩ := h
    simp only [Out.ok.injEq] at h2 h3
    exact ⟨cs, h1, by rw [if_neg e, ← h3, ← h2]⟩

theorem withdrawalItems_length (l : List (Bytes × Nat)) : (withdrawalItems l).length = 2 * l.length := by
  induction l with
  | nil => rfl
  | cons e l ih => obtain ⟨c, v⟩ := e; simp only [withdrawalItems, List.length_cons, ih]; omega

theorem withdrawalItems_wf (l : List (Bytes × Nat)) (h : ∀ w ∈ l, Fits w.1 ∧ U64 w.2) :
    ∀ i ∈ withdrawalItems l, WF i := by
  induction l with
  | nil => simp [withdrawalItems]
  | cons e l ih =>
    obtain ⟨a, n⟩ := e
    have he := h (a, n) (by simp)
    intro i hi
    simp only [withdrawalItems, List.mem_cons] at hi
    rcases hi with rfl | rfl | hi
    · exact WF.bstr (fits_lt he.1)
    · exact WF.uint he.2
    · exact ih (fun e he => h e (by simp [he])) i hi

theorem certs_ok (cs : List Certificate) (l : List (List Item)) (h : mapOut Certificate.ser cs = .ok l) :
    l.length = cs.length ∧ ∀ x ∈ l, ∃ c ∈ cs, c.ser = .ok x := by
  have := (mapOut_eq_ok _ _ _).mp h
  refine ⟨this.1, ?_⟩
  intro x hx
  obtain ⟨i, hi, rfl⟩ := List.mem_iff_getElem.mp hx
  refine ⟨cs[i]'(by omega), List.getElem_mem _, ?_⟩
  exact this.2 (cs[i]'(by omega), l[i]) (by
    rw [List.mem_iff_getElem]; exact ⟨i, by simp; omega, by simp⟩)

theorem body_wf (b : TxBody) (h : BodyRep b) (l : List Item) (hl : b.ser = .ok l) : WF (.map l) := by
  obtain ⟨⟨hi1, _, hi2⟩, ⟨ho1, ho2⟩, hf, ht, ⟨hc1, hc2⟩, ⟨hw1, _, hw2⟩, hm⟩ := h
  obtain ⟨cs, hcs, rfl⟩ := body_ser_ok b l hl
  obtain ⟨hlen, hcm⟩ := certs_ok _ _ hcs
  have a : (if b.certificates = [] then ([] : List Item) else [.uint 4, .array (cs.map .array)]).length = 0 ∨
      (if b.certificates = [] then ([] : List Item) else [.uint 4, .array (cs.map .array)]).length = 2 := by
    split <;> simp
  have w : (withdrawalsEntry b.withdrawals).length = 0 ∨ (withdrawalsEntry b.withdrawals).length = 2 := by
    unfold withdrawalsEntry; split <;> simp
  have m : (metadataEntry b.metadataHash).length = 0 ∨ (metadataEntry b.metadataHash).length = 2 := by
    cases b.metadataHash <;> simp [metadataEntry]
  refine WF.map ?_ ?_ ?_
  · simp only [List.length_append, List.length_cons, List.length_nil]; omega
  · simp only [List.length_append, List.length_cons, List.length_nil]; omega
  · intro i hi
    simp only [List.mem_append, List.mem_cons, List.not_mem_nil, or_false] at hi
    rcases hi with ((h | h) | h) | h
    · rcases h with rfl | rfl | rfl | rfl | rfl | rfl | rfl | rfl
      · exact WF.uint (by omega)
      · refine WF.array (by simpa using fits_lt hi1) ?_
        intro i hi
        obtain ⟨x, hx, rfl⟩ := List.mem_map.mp hi
        exact in_wf x (hi2 x hx)
      · exact WF.uint (by omega)
      · refine WF.array (by simpa using fits_lt ho1) ?_
        intro i hi
        obtain ⟨x, hx, rfl⟩ := List.mem_map.mp hi
        exact out_wf x (ho2 x hx)
      · exact WF.uint (by omega)
      · exact WF.uint hf
      · exact WF.uint (by omega)
      · exact WF.uint ht
    · split at h
      · simp at h
      · simp only [List.mem_cons, List.not_mem_nil, or_false] at h
        rcases h with rfl | rfl
        · exact WF.uint (by omega)
        · refine WF.array (by rw [List.length_map, hlen]; exact fits_lt hc1) ?_
          intro i hi
          obtain ⟨x, hx, rfl⟩ := List.mem_map.mp hi
          obtain ⟨c, hc, hcx⟩ := hcm x hx
          exact cert_wf c (hc2 c hc) x hcx
    · unfold withdrawalsEntry at h
      split at h
      · simp at h
      · simp only [List.mem_cons, List.not_mem_nil, or_false] at h
        rcases h with rfl | rfl
        · exact WF.uint (by omega)
        · exact WF.map (by rw [withdrawalItems_length]; exact hw1) (by rw [withdrawalItems_length]; omega)
            (withdrawalItems_wf _ hw2)
    · cases hb : b.metadataHash with
      | none => rw [hb] at h; simp [metadataEntry] at h
      | some x =>
        rw [hb] at h
        simp only [metadataEntry, List.mem_cons, List.not_mem_nil, or_false] at h
        rcases h with rfl | rfl
        · exact WF.uint (by omega)
        · exact WF.bstr (by have := hm x hb; omega)

theorem withdrawalLoop_items (l acc : List (Bytes × Nat))
    (h : StrictSorted bytesLt ((acc ++ l).map (·.1))) :
    withdrawalLoop (withdrawalItems l) acc = .ok (acc ++ l) := by
  induction l generalizing acc with
  | nil => simp [withdrawalItems, withdrawalLoop]
  | cons e l ih =>
    obtain ⟨a, n⟩ := e
    simp only [withdrawalItems, withdrawalLoop, asBstr, asUint, untag, deref, Out.ok_bind]
    rw [mapAssign_append bytesLt_order a n acc]
    · rw [ih (acc ++ [(a, n)]) (by simpa using h)]; simp
    · intro e he
      unfold StrictSorted at h
      rw [List.map_append, List.pairwise_append] at h
      exact h.2.2 e.1 (List.mem_map_of_mem he) a (by simp)

theorem lookup_skip (k n : Nat) (v : Item) (rest : List Item) (h : n ≠ k) :
    lookup k (.uint n :: v :: rest) = lookup k rest := by
  simp [lookup, h]

theorem lookup_hit (k : Nat) (v : Item) (rest : List Item) : lookup k (.uint k :: v :: rest) = some v := by
  simp [lookup]

/-- What reading back a body gives. -/
theorem body_deser (b : TxBody) (h : BodyRep b) (cs : List (List Item)) (l : List Item)
    (hcs : mapOut Certificate.ser b.certificates = .ok cs)
    (hl : l = [.uint 0, .array (b.inputs.map fun i => .array i.ser),
        .uint 1, .array (b.outputs.map fun o => .array o.ser),
        .uint 2, .uint b.fee, .uint 3, .uint b.ttl]
       ++ (if b.certificates = [] then [] else [.uint 4, .array (cs.map .array)])
       ++ withdrawalsEntry b.withdrawals ++ metadataEntry b.metadataHash) :
    TxBody.deser l = (mapOut (Certificate.deser .empty) cs).bind fun certs =>
      .ok { b with certificates := certs, update := false } := by
  obtain ⟨⟨_, hi1, hi2⟩, ⟨_, _⟩, _, _, _, ⟨_, hw, _⟩, hm⟩ := h
  have a0 : arrayAt 0 l = b.inputs.map fun i => .array i.ser := by
    rw [hl]; simp [arrayAt, lookup, asArray, untag]
  have a1 : arrayAt 1 l = b.outputs.map fun o => .array o.ser := by
    rw [hl]; simp [arrayAt, lookup, asArray, untag]
  have f2 : uintAt 2 l = b.fee := by rw [hl]; simp [uintAt, lookup, asUint, untag]
  have t3 : uintAt 3 l = b.ttl := by rw [hl]; simp [uintAt, lookup, asUint, untag]
  have tail : ∀ k, 4 ≤ k → lookup k l = lookup k
      ((if b.certificates = [] then [] else [.uint 4, .array (cs.map .array)])
       ++ withdrawalsEntry b.withdrawals ++ metadataEntry b.metadataHash) := by
    intro k hk
    rw [hl]
    simp only [List.append_assoc, List.cons_append, List.nil_append]
    rw [lookup_skip _ _ _ _ (by omega), lookup_skip _ _ _ _ (by omega), lookup_skip _ _ _ _ (by omega),
      lookup_skip _ _ _ _ (by omega)]
  have a4 : arrayAt 4 l = cs.map .array := by
    unfold arrayAt
    rw [tail 4 (by omega)]
    by_cases hc : b.certificates = []
    · rw [hc] at hcs
      simp only [mapOut, Out.ok.injEq] at hcs
      subst hcs
      simp only [hc, if_true, List.nil_append]
      unfold withdrawalsEntry metadataEntry
      split <;> cases b.metadataHash <;> simp [lookup]
    · simp only [hc, if_false, List.cons_append, List.nil_append]
      rw [lookup_hit]; rfl
  have w5 : ((lookup 5 l).bind asMap).getD [] = withdrawalItems b.withdrawals := by
    rw [tail 5 (by omega)]
    have : lookup 5 ((if b.certificates = [] then [] else [.uint 4, .array (cs.map .array)])
       ++ withdrawalsEntry b.withdrawals ++ metadataEntry b.metadataHash) =
       lookup 5 (withdrawalsEntry b.withdrawals ++ metadataEntry b.metadataHash) := by
      split <;> simp [lookup]
    rw [this]
    unfold withdrawalsEntry
    by_cases hw : b.withdrawals = []
    · simp only [hw, if_true, List.nil_append]
      cases b.metadataHash <;> simp [metadataEntry, lookup, withdrawalItems]
    · simp only [hw, if_false, List.cons_append, List.nil_append]
      rw [lookup_hit]; rfl
  have h7 : hashAt l = .ok b.metadataHash := by
    unfold hashAt
    rw [tail 7 (by omega)]
    have : lookup 7 ((if b.certificates = [] then [] else [.uint 4, .array (cs.map .array)])
       ++ withdrawalsEntry b.withdrawals ++ metadataEntry b.metadataHash) =
       lookup 7 (metadataEntry b.metadataHash) := by
      unfold withdrawalsEntry
      split <;> split <;> simp [lookup]
    rw [this]
    cases hh : b.metadataHash with
    | none => rfl
    | some x => simp [metadataEntry, lookup, asBstr, untag, reqLen, hm x hh]
  unfold TxBody.deser
  rw [a0, a1, a4, w5, h7, f2, t3, mapOut_map, mapOut_map, mapOut_map]
  rw [mapOut_ok _ id b.inputs (fun i hi => by simp [inputOf, asArray, untag, deref, in_deser i (hi2 i hi)]),
    mapOut_ok _ id b.outputs (fun o _ => by simp [outputOf, asArray, untag, deref, out_deser o])]
  have hcert : (fun a => certOf (.array a)) = Certificate.deser .empty := by
    funext a; simp [certOf, asArray, untag, deref]
  rw [hcert, withdrawalLoop_items _ [] (by simpa using hw)]
  simp only [Out.ok_bind, List.map_id, List.nil_append]
  rw [foldl_setInsert_sorted txInLt_order _ hi1]
  cases mapOut (Certificate.deser .empty) cs <;> rfl

theorem certs_back_iff (cs : List Certificate) (h : ∀ c ∈ cs, CertRep c) (l : List (List Item))
    (hl : mapOut Certificate.ser cs = .ok l) :
    mapOut (Certificate.deser .empty) l = .ok cs ↔ ∀ c ∈ cs, CertPreserved c := by
  induction cs generalizing l with
  | nil =>
    simp only [mapOut, Out.ok.injEq] at hl; subst hl
    simp [mapOut]
  | cons c cs ih =>
    simp only [mapOut, Out.bind_eq_ok] at hl
    obtain ⟨x, hx, xs, hxs, hl⟩ := hl
    simp only [Out.ok.injEq] at hl; subst hl
    have h1 := cert_item_iff .empty c (h c (by simp))
    rw [hx, Out.ok_bind] at h1
    have h2 := ih (fun c hc => h c (by simp [hc])) xs hxs
    simp only [List.mem_cons, forall_eq_or_imp, ← h1, ← h2, mapOut, Out.bind_eq_ok]
    constructor
    · rintro ⟨c', a, cs', b, e⟩
      simp only [Out.ok.injEq, List.cons.injEq] at e
      obtain ⟨rfl, rfl⟩ := e
      exact ⟨a, b⟩
    · rintro ⟨a, b⟩
      exact ⟨c, a, cs, b, rfl⟩

theorem certs_ser (cs : List Certificate) (h : ∀ c ∈ cs, CertRep c) (hp : ∀ c ∈ cs, CertPreserved c) :
    ∃ l, mapOut Certificate.ser cs = .ok l := by
  induction cs with
  | nil => exact ⟨[], rfl⟩
  | cons c cs ih =>
    obtain ⟨l, hl⟩ := ih (fun c hc => h c (by simp [hc])) (fun c hc => hp c (by simp [hc]))
    obtain ⟨x, hx, _⟩ := Out.bind_eq_ok.mp ((cert_item_iff .empty c (h c (by simp))).mpr (hp c (by simp)))
    exact ⟨x :: l, by simp [mapOut, hx, hl]⟩

theorem body_item_iff (b : TxBody) (h : BodyRep b) :
    (∃ l, b.ser = .ok l ∧ TxBody.deser l = .ok b) ↔ BodyPreserved b := by
  constructor
  · rintro ⟨l, hl, hd⟩
    obtain ⟨cs, hcs, e⟩ := body_ser_ok b l hl
    rw [body_deser b h cs l hcs e] at hd
    cases hm : mapOut (Certificate.deser .empty) cs with
    | ok certs =>
      rw [hm] at hd
      simp only [Out.bind, Out.ok.injEq] at hd
      have e1 : b.update = false := by rw [← hd]
      have e2 : certs = b.certificates := by rw [← hd]
      exact ⟨e1, (certs_back_iff _ h.2.2.2.2.1.2 cs hcs).mp (by rw [hm, e2])⟩
    | throw e => rw [hm] at hd; simp [Out.bind] at hd
    | ub => rw [hm] at hd; simp [Out.bind] at hd
  · rintro ⟨hu, hp⟩
    have hcr := h.2.2.2.2.1.2
    obtain ⟨cs, hcs⟩ := certs_ser _ hcr hp
    have hs : ∃ l, b.ser = .ok l := by
      unfold TxBody.ser certsEntry
      split
      · exact ⟨_, rfl⟩
      · rw [hcs]; exact ⟨_, rfl⟩
    obtain ⟨l, hl⟩ := hs
    refine ⟨l, hl, ?_⟩
    obtain ⟨cs', hcs', e⟩ := body_ser_ok b l hl
    rw [hcs] at hcs'
    obtain rfl := Out.ok.inj hcs'
    rw [body_deser b h cs l hcs e, (certs_back_iff _ hcr cs hcs).mpr hp]
    simp only [Out.bind]
    rw [← hu]

/-- **C43** (bodies), exact: a transaction body serializes and comes back unchanged if and only
if it has no protocol update and all its certificates are of the preserved kinds (C44).  Inputs,
outputs, fee, ttl, withdrawals and metadata hash never matter. -/
theorem C43_body_iff_partial (b : TxBody) (h : BodyRep b) :
    (∃ s, b.serialize = .ok s ∧ ∀ rest, TxBody.deserialize (s ++ rest) = .ok b) ↔ BodyPreserved b := by
  rw [← body_item_iff b h]
  constructor
  · rintro ⟨s, hs, hd⟩
    unfold TxBody.serialize at hs
    obtain ⟨l, hl, e⟩ := Out.bind_eq_ok.mp hs
    simp only [Out.ok.injEq] at e; subst e
    have := hd []
    unfold TxBody.deserialize at this
    rw [deserializeMap_enc _ _ _ (body_wf b h l hl)] at this
    exact ⟨l, hl, this⟩
  · rintro ⟨l, hl, hd⟩
    refine ⟨encMap l, by unfold TxBody.serialize; rw [hl]; rfl, fun rest => ?_⟩
    unfold TxBody.deserialize
    rw [deserializeMap_enc _ _ _ (body_wf b h l hl), hd]

/-- **C43**: a body with a protocol update loses it. -/
theorem C43_update_dropped (b : TxBody) (h : BodyRep b) (hp : ∀ c ∈ b.certificates, CertPreserved c) :
    ∃ s, b.serialize = .ok s ∧ ∀ rest, TxBody.deserialize (s ++ rest) = .ok { b with update := false } := by
  have h' : BodyRep { b with update := false } := h
  have := (C43_body_iff_partial _ h').mpr ⟨rfl, hp⟩
  obtain ⟨s, hs, hd⟩ := this
  exact ⟨s, hs, hd⟩

theorem wits_wf (w : WitnessSet) (h : WitsRep w) : WF (.map w.ser) := by
  obtain ⟨⟨h1, h2⟩, ⟨h3, h4⟩⟩ := h
  have a : (vkeysEntry w.vkeys).length = 0 ∨ (vkeysEntry w.vkeys).length = 2 := by
    unfold vkeysEntry; split <;> simp
  have b : (multisigEntry w.multisig).length = 0 ∨ (multisigEntry w.multisig).length = 2 := by
    unfold multisigEntry; split <;> simp
  have c : (bootstrapEntry w.bootstrap).length = 0 ∨ (bootstrapEntry w.bootstrap).length = 2 := by
    unfold bootstrapEntry; split <;> simp
  refine WF.map ?_ ?_ ?_
  · simp only [WitnessSet.ser, List.length_append]; omega
  · simp only [WitnessSet.ser, List.length_append]; omega
  · intro i hi
    simp only [WitnessSet.ser, List.mem_append] at hi
    rcases hi with (h | h) | h
    · unfold vkeysEntry at h
      split at h
      · simp at h
      · simp only [List.mem_cons, List.not_mem_nil, or_false] at h
        rcases h with rfl | rfl
        · exact WF.uint (by omega)
        · refine WF.array (by simpa using fits_lt h1) ?_
          intro i hi
          obtain ⟨x, hx, rfl⟩ := List.mem_map.mp hi
          have := h2 x hx
          refine WF.array (by simp [VkeyWitness.ser]) ?_
          intro j hj
          simp only [VkeyWitness.ser, List.mem_cons, List.not_mem_nil, or_false] at hj
          rcases hj with rfl | rfl
          · exact WF.bstr (by have := this.1; omega)
          · exact WF.bstr (by have := this.2; omega)
    · unfold multisigEntry at h
      split at h
      · simp at h
      · simp only [List.mem_cons, List.not_mem_nil, or_false] at h
        rcases h with rfl | rfl
        · exact WF.uint (by omega)
        · refine WF.array (by rw [serScripts_length]; exact fits_lt h3) ?_
          intro i hi
          obtain ⟨s, hs, rfl⟩ := (mem_serScripts _ _).mp hi
          exact script_wf s (h4 s hs)
    · unfold bootstrapEntry at h
      split at h
      · simp at h
      · simp only [List.mem_cons, List.not_mem_nil, or_false] at h
        rcases h with rfl | rfl
        · exact WF.uint (by omega)
        · exact WF.array (by simp) (by simp)

/-- What reading back a witness set gives. -/
theorem wits_deser (w : WitnessSet) (h : WitsRep w) :
    WitnessSet.deser w.ser = .ok { vkeys := w.vkeys, multisig := [], bootstrap := [] } := by
  have a0 : arrayAt 0 w.ser = w.vkeys.map fun v => .array v.ser := by
    unfold arrayAt WitnessSet.ser vkeysEntry
    split
    · rename_i e
      have : lookup 0 (multisigEntry w.multisig ++ bootstrapEntry w.bootstrap) = none := by
        unfold multisigEntry bootstrapEntry
        split <;> split <;> simp [lookup]
      rw [List.nil_append, this, e]; rfl
    · simp [lookup, asArray, untag]
  unfold WitnessSet.deser
  rw [a0]
  have fm : (w.vkeys.map fun v => Item.array v.ser).filterMap asArray = w.vkeys.map VkeyWitness.ser := by
    rw [List.filterMap_map]
    have : (asArray ∘ fun (v : VkeyWitness) => Item.array v.ser) = fun v => some v.ser := by
      funext v; rfl
    rw [this, List.filterMap_eq_map']
  rw [fm, mapOut_map, mapOut_ok _ id]
  · simp
  · intro v hv
    have := h.1.2 v hv
    obtain ⟨k, s⟩ := v
    have h1 : k.length = 32 := this.1
    have h2 : s.length = 64 := this.2
    simp [vkeyOf, VkeyWitness.ser, Cbor.get, deref, asBstr, untag, byteArray, h1, h2,
      List.take_of_length_le (Nat.le_of_eq h1), List.take_of_length_le (Nat.le_of_eq h2)]

/-- **C43** (witness sets): the key witnesses always come back, in order; native scripts and
bootstrap witnesses never do. -/
theorem C43_witness_set (w : WitnessSet) (h : WitsRep w) (rest : Bytes) :
    WitnessSet.deserialize (w.serialize ++ rest) = .ok { vkeys := w.vkeys, multisig := [], bootstrap := [] } := by
  unfold WitnessSet.deserialize WitnessSet.serialize
  rw [deserializeMap_enc _ _ _ (wits_wf w h), wits_deser w h]

/-- **C43** (witness sets), exact. -/
theorem C43_witness_set_iff_partial (w : WitnessSet) (h : WitsRep w) :
    (∀ rest, WitnessSet.deserialize (w.serialize ++ rest) = .ok w) ↔ WitsPreserved w := by
  simp only [C43_witness_set w h, Out.ok.injEq]
  obtain ⟨v, m, b⟩ := w
  simp only [WitnessSet.mk.injEq, true_and, WitsPreserved]
  constructor
  · intro h; have := h []; exact ⟨this.1.symm, this.2.symm⟩
  · rintro ⟨rfl, rfl⟩; simp

theorem tx_wf (t : Tx) (h : TxRep t) (l : List Item) (hl : t.ser = .ok l) : WF (.array l) := by
  unfold Tx.ser at hl
  obtain ⟨b, hb, e⟩ := Out.bind_eq_ok.mp hl
  simp only [Out.ok.injEq] at e; subst e
  refine WF.array (by split <;> simp) ?_
  intro i hi
  simp only [List.mem_append, List.mem_cons, List.not_mem_nil, or_false] at hi
  rcases hi with (rfl | rfl) | hi
  · exact body_wf _ h.1 b hb
  · exact wits_wf _ h.2
  · split at hi
    · simp at hi
    · simp at hi; subst hi; exact WF.null

theorem tx_deser (old t : Tx) (h : TxRep t) (l : List Item) (hl : t.ser = .ok l) :
    Tx.deser old l = (t.body.ser >>= TxBody.deser) >>= fun b =>
      .ok { body := b, wits := { vkeys := t.wits.vkeys, multisig := [], bootstrap := [] }, metadata := old.metadata } := by
  unfold Tx.ser at hl
  obtain ⟨b, hb, e⟩ := Out.bind_eq_ok.mp hl
  simp only [Out.ok.injEq] at e; subst e
  rw [hb]
  simp only [Tx.deser, bodyAt, witsAt, List.cons_append, List.getElem?_cons_zero, List.getElem?_cons_succ,
    Option.bind_some, asMap, untag, Out.ok_bind, wits_deser _ h.2]

/-- **C43** (transactions), exact: read into a fresh object, a transaction comes back unchanged
if and only if its body is preserved, it has no native scripts and no bootstrap witnesses, and
no metadata. -/
theorem C43_transaction_iff_partial (t : Tx) (h : TxRep t) :
    (∃ s, t.serialize = .ok s ∧ ∀ rest, Tx.deserialize {} (s ++ rest) = .ok t) ↔
      BodyPreserved t.body ∧ WitsPreserved t.wits ∧ t.metadata = false := by
  rw [← body_item_iff _ h.1]
  constructor
  · rintro ⟨s, hs, hd⟩
    unfold Tx.serialize at hs
    obtain ⟨l, hl, e⟩ := Out.bind_eq_ok.mp hs
    simp only [Out.ok.injEq] at e; subst e
    have := hd []
    unfold Tx.deserialize at this
    rw [deserializeArray_enc _ _ _ (tx_wf t h l hl), tx_deser {} t h l hl] at this
    obtain ⟨b, hb, e⟩ := Out.bind_eq_ok.mp this
    obtain ⟨l', hl', hd'⟩ := Out.bind_eq_ok.mp hb
    simp only [Out.ok.injEq] at e
    have e1 : t.body = b := by rw [← e]
    have e2 : t.wits = { vkeys := t.wits.vkeys } := (congrArg Tx.wits e).symm
    have e3 : t.metadata = false := by rw [← e]
    exact ⟨⟨l', hl', by rw [e1]; exact hd'⟩, ⟨by rw [e2], by rw [e2]⟩, e3⟩
  · rintro ⟨⟨b, hb, hd⟩, ⟨hm, hbt⟩, hmd⟩
    have hs : ∃ l, t.ser = .ok l := by unfold Tx.ser; rw [hb]; exact ⟨_, rfl⟩
    obtain ⟨l, hl⟩ := hs
    refine ⟨encArray l, by unfold Tx.serialize; rw [hl]; rfl, fun rest => ?_⟩
    unfold Tx.deserialize
    rw [deserializeArray_enc _ _ _ (tx_wf t h l hl), tx_deser {} t h l hl, hb, Out.ok_bind, hd, Out.ok_bind]
    obtain ⟨tb, ⟨v, m, bw⟩, md⟩ := t
    simp_all

/-- **C43**: reading a transaction into an object that already holds metadata keeps that old
metadata. -/
theorem C43_old_metadata_kept (old t : Tx) (h : TxRep t) (hb : BodyPreserved t.body) (rest : Bytes) :
    ∃ s, t.serialize = .ok s ∧ Tx.deserialize old (s ++ rest) =
      .ok { body := t.body, wits := { vkeys := t.wits.vkeys, multisig := [], bootstrap := [] }, metadata := old.metadata } := by
  obtain ⟨b, hb, hd⟩ := (body_item_iff _ h.1).mpr hb
  have hs : ∃ l, t.ser = .ok l := by unfold Tx.ser; rw [hb]; exact ⟨_, rfl⟩
  obtain ⟨l, hl⟩ := hs
  refine ⟨encArray l, by unfold Tx.serialize; rw [hl]; rfl, ?_⟩
  unfold Tx.deserialize
  rw [deserializeArray_enc _ _ _ (tx_wf t h l hl), tx_deser old t h l hl, hb, Out.ok_bind, hd, Out.ok_bind]

end Cardano.Ledger
