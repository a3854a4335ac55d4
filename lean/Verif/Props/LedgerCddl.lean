import Verif.Props.LedgerTx

/-! # C64: serialized transactions follow the ledger's CDDL

Each theorem is an exact characterisation: the written CBOR conforms if and only if the value
satisfies the listed condition. -/

namespace Cardano.Ledger

open Cardano.Cbor Cardano.Spec.Ledger

/-- **C64**: credentials conform. -/
theorem C64_credential (c : StakeCredential) (h : CredRep c) : StakeCredentialC (.array c.ser) := by
  obtain ⟨t, b⟩ := c
  cases t
  · exact Or.inl ⟨_, rfl, rfl, ⟨b, rfl, h⟩, trivial⟩
  · exact Or.inr ⟨_, rfl, rfl, ⟨b, rfl, h⟩, trivial⟩

/-- **C64**: pool metadata conforms iff the URL has at most 64 bytes (not checked by the code). -/
theorem C64_metadata (m : PoolMetadata) (h : MetaRep m) : PoolMetadataC (.array m.ser) ↔ m.url.length ≤ 64 := by
  constructor
  · rintro ⟨l, hl, hm⟩
    injection hl with hl; subst hl
    obtain ⟨⟨b, hb, hb'⟩, -⟩ := hm
    injection hb with hb; subst hb; exact hb'
  · intro hu
    exact ⟨_, rfl, ⟨_, rfl, hu⟩, ⟨_, rfl, h.2⟩, trivial⟩

/-- The relays whose serialization is a CDDL `relay`. -/
def RelayConforms : Relay → Prop
  | .addr (some _) _ _ => True
  | .name dns _ => dns.length ≤ 64
  | .multi dns => dns.length ≤ 64
  | _ => False

theorem portC (p : Option Nat) (h : ∀ q ∈ p, q < 2 ^ 16) : OrNull PortC (portItem p) := by
  cases p with
  | none => exact Or.inr rfl
  | some q => exact Or.inl ⟨q, rfl, by have := h q rfl; omega⟩

/-- **C64**: a serialized relay conforms iff it has an IPv4 address, or a name of at most 64
bytes. -/
theorem C64_relay (r : Relay) (h : RelayRep r) (l : List Item) (hl : r.ser = .ok l) :
    RelayC (.array l) ↔ RelayConforms r := by
  cases r with
  | empty =>
    simp only [Relay.ser, Out.ok.injEq] at hl; subst hl
    simp [RelayC, Group, Matches, RelayConforms]
  | addr v4 v6 port =>
    obtain ⟨h4, h6, hp⟩ := h
    cases v4 with
    | some v4 =>
      simp only [Relay.ser, Out.ok.injEq] at hl; subst hl
      simp only [RelayConforms, iff_true]
      exact Or.inl ⟨_, rfl, rfl, portC port hp, Or.inl ⟨v4, rfl, h4 v4 rfl⟩, Or.inr rfl, trivial⟩
    | none =>
      cases v6 with
      | some v6 => simp [Relay.ser] at hl
      | none =>
        simp only [Relay.ser, Out.ok.injEq] at hl; subst hl
        simp [RelayC, Group, Matches, RelayConforms, Lit]
  | name dns port =>
    simp only [Relay.ser, Out.ok.injEq] at hl; subst hl
    simp only [RelayConforms]
    constructor
    · rintro (⟨x, hx, hm⟩ | ⟨x, hx, hm⟩ | ⟨x, hx, hm⟩) <;> (injection hx with hx; subst hx)
      · simp [Matches, Lit] at hm
      · obtain ⟨_, _, ⟨b, hb, hb'⟩, _⟩ := hm
        injection hb with hb; subst hb; exact hb'
      · simp [Matches, Lit] at hm
    · intro hd
      exact Or.inr (Or.inl ⟨_, rfl, rfl, portC port h.2, ⟨dns, rfl, hd⟩, trivial⟩)
  | multi dns =>
    simp only [Relay.ser, Out.ok.injEq] at hl; subst hl
    simp only [RelayConforms]
    constructor
    · rintro (⟨x, hx, hm⟩ | ⟨x, hx, hm⟩ | ⟨x, hx, hm⟩) <;> (injection hx with hx; subst hx)
      · simp [Matches, Lit] at hm
      · simp [Matches, Lit] at hm
      · obtain ⟨_, ⟨b, hb, hb'⟩, _⟩ := hm
        injection hb with hb; subst hb; exact hb'
    · intro hd
      exact Or.inr (Or.inr ⟨_, rfl, rfl, ⟨dns, rfl, hd⟩, trivial⟩)

theorem mirEntries_flat (l : List (StakeCredential × Nat)) :
    mirEntries l = (l.map fun e => (Item.array e.1.ser, Item.uint e.2)).flatMap fun kv => [kv.1, kv.2] := by
  induction l with
  | nil => rfl
  | cons e l ih => obtain ⟨c, v⟩ := e; simp [mirEntries, ih]

/-- Splitting an alternating key/value list is unique. -/
theorem flat_inj (a b : List (Item × Item)) (h : (a.flatMap fun kv => [kv.1, kv.2]) = b.flatMap fun kv => [kv.1, kv.2]) :
    a = b := by
  induction a generalizing b with
  | nil => cases b <;> simp_all
  | cons x a ih =>
    cases b with
    | nil => simp at h
    | cons y b =>
      simp only [List.flatMap_cons, List.cons_append, List.nil_append, List.cons.injEq] at h
      rw [ih b h.2.2]
      have : x = y := Prod.ext h.1 h.2.1
      rw [this]

theorem cred_ser_inj (a b : StakeCredential) (h : a.ser = b.ser) : a = b := by
  obtain ⟨t, c⟩ := a; obtain ⟨t', c'⟩ := b
  cases t <;> cases t' <;> simp_all [StakeCredential.ser, CredType.num]

/-- **C64**: MIR conforms iff no credential occurs twice. -/
theorem C64_mir (m : MIR) (h : MirRep m) : MirC (.array m.ser) ↔ (m.creds.map (·.1)).Nodup := by
  have inj : ∀ l : List (StakeCredential × Nat), (l.map fun e => Item.array e.1.ser).Nodup ↔ (l.map (·.1)).Nodup := by
    intro l
    induction l with
    | nil => simp
    | cons e l ih =>
      simp only [List.map_cons, List.nodup_cons, ih, List.mem_map]
      refine and_congr_left fun _ => not_congr ?_
      constructor
      · rintro ⟨x, hx, he⟩
        injection he with he
        exact ⟨x, hx, cred_ser_inj _ _ he⟩
      · rintro ⟨x, hx, he⟩
        exact ⟨x, hx, by rw [he]⟩
  constructor
  · rintro ⟨l, hl, hm⟩
    injection hl with hl; subst hl
    obtain ⟨_, ⟨ps, hps, hnd, -⟩, _⟩ := hm
    injection hps with hps
    rw [mirEntries_flat] at hps
    have := flat_inj _ _ hps
    rw [← this, List.map_map] at hnd
    exact (inj _).mp hnd
  · intro hnd
    refine ⟨_, rfl, ?_, ⟨m.creds.map fun e => (Item.array e.1.ser, Item.uint e.2), ?_, ?_, ?_⟩, trivial⟩
    · cases m.source
      · exact Or.inl rfl
      · exact Or.inr rfl
    · rw [mirEntries_flat]
    · rw [List.map_map]; exact (inj _).mpr hnd
    · intro kv hkv
      obtain ⟨e, he, rfl⟩ := List.mem_map.mp hkv
      exact ⟨C64_credential e.1 (h.2 e he).1, ⟨e.2, rfl⟩⟩

/-- The certificates whose serialization is a CDDL `certificate`. -/
def CertConforms : Certificate → Prop
  | .empty => False
  | .poolReg p => p.owners ≠ [] ∧ p.relays ≠ [] ∧ (∀ r ∈ p.relays, RelayConforms r) ∧
      ∃ m, p.metadata = some m ∧ m.url.length ≤ 64
  | .mir m => (m.creds.map (·.1)).Nodup
  | _ => True

theorem group_length {ps : List (Item → Prop)} : ∀ {l : List Item}, Matches ps l → l.length = ps.length := by
  induction ps with
  | nil => intro l h; cases l <;> simp_all [Matches]
  | cons p ps ih =>
    intro l h
    cases l with
    | nil => simp [Matches] at h
    | cons x l => simp only [Matches] at h; simp [ih h.2]

/-- **C64**: a serialized certificate conforms iff it is not empty, a MIR names no credential
twice, and a pool registration has owners, relays and metadata (otherwise the code leaves out
elements that the CDDL requires). -/
theorem C64_certificate (c : Certificate) (h : CertRep c) (l : List Item) (hl : c.ser = .ok l) :
    CertificateC (.array l) ↔ CertConforms c := by
  cases c with
  | empty =>
    simp only [Certificate.ser, Out.ok.injEq] at hl; subst hl
    simp [CertificateC, Group, Matches, CertConforms]
  | stakeReg c =>
    simp only [Certificate.ser, Out.ok.injEq] at hl; subst hl
    simp only [CertConforms, iff_true]
    exact Or.inl ⟨_, rfl, rfl, C64_credential c h, trivial⟩
  | stakeDereg c =>
    simp only [Certificate.ser, Out.ok.injEq] at hl; subst hl
    simp only [CertConforms, iff_true]
    exact Or.inr (Or.inl ⟨_, rfl, rfl, C64_credential c h, trivial⟩)
  | delegation c p =>
    simp only [Certificate.ser, Out.ok.injEq] at hl; subst hl
    simp only [CertConforms, iff_true]
    exact Or.inr (Or.inr (Or.inl ⟨_, rfl, rfl, C64_credential c h.1, ⟨p, rfl, h.2⟩, trivial⟩))
  | poolRetire p e =>
    simp only [Certificate.ser, Out.ok.injEq] at hl; subst hl
    simp only [CertConforms, iff_true]
    exact Or.inr (Or.inr (Or.inr (Or.inr (Or.inl ⟨_, rfl, rfl, ⟨p, rfl, h.1⟩, ⟨e, rfl⟩, trivial⟩))))
  | genesisDeleg g d v =>
    simp only [Certificate.ser, Out.ok.injEq] at hl; subst hl
    simp only [CertConforms, iff_true]
    exact Or.inr (Or.inr (Or.inr (Or.inr (Or.inr (Or.inl
      ⟨_, rfl, rfl, ⟨g, rfl, h.1⟩, ⟨d, rfl, h.2.1⟩, ⟨v, rfl, h.2.2⟩, trivial⟩)))))
  | mir m =>
    simp only [Certificate.ser, Out.ok.injEq] at hl; subst hl
    simp only [CertConforms, ← C64_mir m h]
    constructor
    · rintro (h | h | h | h | h | h | h) <;> obtain ⟨x, hx, hm⟩ := h <;> (injection hx with hx; subst hx) <;>
        simp only [Matches, Lit, Item.uint.injEq] at hm
      · omega
      · omega
      · omega
      · omega
      · omega
      · omega
      · exact hm.2.1
    · intro hm
      exact Or.inr (Or.inr (Or.inr (Or.inr (Or.inr (Or.inr ⟨_, rfl, rfl, hm, trivial⟩)))))
  | poolReg p =>
    simp only [Certificate.ser, Out.bind_eq_ok] at hl
    obtain ⟨ps, hps, e⟩ := hl
    simp only [Out.ok.injEq] at e; subst e
    obtain ⟨rs, hrs, rfl⟩ := pool_ser_ok p ps hps
    obtain ⟨h1, h2, h3, h4, h5, h6, ⟨h7, _, h8⟩, ⟨h9, h10⟩, h11⟩ := h
    have hz := (mapOut_eq_ok _ _ _).mp hrs
    simp only [CertConforms]
    constructor
    · rintro (h | h | h | h | h | h | h) <;> obtain ⟨x, hx, hm⟩ := h <;> (injection hx with hx; subst hx)
      · simp [Matches, Lit] at hm
      · simp [Matches, Lit] at hm
      · simp [Matches, Lit] at hm
      · have hlen := group_length hm
        simp only [List.length_cons, List.length_append, List.length_nil] at hlen
        have ho : p.owners ≠ [] := by
          intro e
          have : (if p.relays = [] then ([] : List Item) else [.array (rs.map .array)]).length ≤ 1 := by split <;> simp
          have : (metadataItem p.metadata).length ≤ 1 := by cases p.metadata <;> simp [metadataItem]
          simp only [ownersItem, e, if_true, List.length_nil] at hlen
          omega
        have hr : p.relays ≠ [] := by
          intro e
          have : (ownersItem p.owners).length ≤ 1 := by unfold ownersItem; split <;> simp
          have : (metadataItem p.metadata).length ≤ 1 := by cases p.metadata <;> simp [metadataItem]
          simp only [e, if_true, List.length_nil] at hlen
          omega
        have hmm : ∃ m, p.metadata = some m := by
          cases hm' : p.metadata with
          | some m => exact ⟨m, rfl⟩
          | none =>
            have : (ownersItem p.owners).length ≤ 1 := by unfold ownersItem; split <;> simp
            have : (if p.relays = [] then ([] : List Item) else [.array (rs.map .array)]).length ≤ 1 := by split <;> simp
            simp only [hm', metadataItem, List.length_nil] at hlen
            omega
        obtain ⟨m, hm'⟩ := hmm
        simp only [ownersItem, ho, hr, hm', if_false, metadataItem, List.cons_append, List.nil_append,
          Matches] at hm
        obtain ⟨_, _, _, _, _, _, _, _, hrel, hmeta, _⟩ := hm
        refine ⟨ho, hr, ?_, m, hm', ?_⟩
        · obtain ⟨x, hx, hall⟩ := hrel
          injection hx with hx; subst hx
          intro r hrm
          obtain ⟨i, hi, rfl⟩ := List.mem_iff_getElem.mp hrm
          have hser := hz.2 (p.relays[i], rs[i]'(by omega)) (by
            rw [List.mem_iff_getElem]; exact ⟨i, by simp; omega, by simp⟩)
          exact (C64_relay _ (h10 _ hrm) _ hser).mp (hall _ (List.mem_map_of_mem (List.getElem_mem _)))
        · rcases hmeta with hmeta | hmeta
          · exact (C64_metadata m (h11 m hm')).mp hmeta
          · cases hmeta
      · simp [Matches, Lit] at hm
      · simp [Matches, Lit] at hm
      · simp [Matches, Lit] at hm
    · rintro ⟨ho, hr, hrc, m, hm, hu⟩
      refine Or.inr (Or.inr (Or.inr (Or.inl ⟨_, rfl, ?_⟩)))
      simp only [ownersItem, ho, hr, hm, if_false, metadataItem, List.cons_append, List.nil_append, Matches]
      refine ⟨rfl, ⟨_, rfl, h1⟩, ⟨_, rfl, h2⟩, ⟨_, rfl⟩, ⟨_, rfl⟩, ⟨_, _, rfl⟩, ⟨_, rfl⟩, ⟨_, rfl, ?_⟩, ⟨_, rfl, ?_⟩,
        Or.inl ((C64_metadata m (h11 m hm)).mpr hu), trivial⟩
      · intro x hx
        obtain ⟨o, ho, rfl⟩ := List.mem_map.mp hx
        exact ⟨o, rfl, h8 o ho⟩
      · intro x hx
        obtain ⟨y, hy, rfl⟩ := List.mem_map.mp hx
        obtain ⟨r, hr, hs⟩ := (relays_ok _ _ hrs).2 y hy
        exact (C64_relay r (h10 r hr) y hs).mpr (hrc r hr)

/-- No empty node anywhere. -/
inductive ScriptFull : Script → Prop
  | pubkey {h} : ScriptFull (.pubkey h)
  | all {l : List Script} : (∀ s ∈ l, ScriptFull s) → ScriptFull (.all l)
  | any {l : List Script} : (∀ s ∈ l, ScriptFull s) → ScriptFull (.any l)
  | nOfK {n : Nat} {l : List Script} : (∀ s ∈ l, ScriptFull s) → ScriptFull (.nOfK n l)

/-- **C64**: a serialized native script conforms iff it has no empty node. -/
theorem C64_script (s : Script) (h : ScriptRep s) : MultisigC (.array s.ser) ↔ ScriptFull s := by
  induction h with
  | empty =>
    constructor
    · intro h; rw [Script.ser] at h; cases h
    · intro h; cases h
  | pubkey hl =>
    refine ⟨fun _ => .pubkey, fun _ => ?_⟩
    rw [Script.ser]; exact .pubkey ⟨_, rfl, hl⟩
  | @all l _ _ ih =>
    constructor
    · intro h; rw [Script.ser] at h
      cases h with | all h =>
      exact .all fun s hs => (ih s hs).mp (h _ ((mem_serScripts _ _).mpr ⟨s, hs, rfl⟩))
    · intro h; cases h with | all h =>
      rw [Script.ser]
      refine .all fun i hi => ?_
      obtain ⟨s, hs, rfl⟩ := (mem_serScripts _ _).mp hi
      exact (ih s hs).mpr (h s hs)
  | @any l _ _ ih =>
    constructor
    · intro h; rw [Script.ser] at h
      cases h with | any h =>
      exact .any fun s hs => (ih s hs).mp (h _ ((mem_serScripts _ _).mpr ⟨s, hs, rfl⟩))
    · intro h; cases h with | any h =>
      rw [Script.ser]
      refine .any fun i hi => ?_
      obtain ⟨s, hs, rfl⟩ := (mem_serScripts _ _).mp hi
      exact (ih s hs).mpr (h s hs)
  | @nOfK n l _ _ _ ih =>
    constructor
    · intro h; rw [Script.ser] at h
      cases h with | nOfK h =>
      exact .nOfK fun s hs => (ih s hs).mp (h _ ((mem_serScripts _ _).mpr ⟨s, hs, rfl⟩))
    · intro h; cases h with | nOfK h =>
      rw [Script.ser]
      refine .nOfK fun i hi => ?_
      obtain ⟨s, hs, rfl⟩ := (mem_serScripts _ _).mp hi
      exact (ih s hs).mpr (h s hs)

/-- The integer-keyed entries of a map, as written. -/
theorem flatk_inj (a b : List (Nat × Item))
    (h : (a.flatMap fun kv => [Item.uint kv.1, kv.2]) = b.flatMap fun kv => [Item.uint kv.1, kv.2]) : a = b := by
  induction a generalizing b with
  | nil => cases b <;> simp_all
  | cons x a ih =>
    cases b with
    | nil => simp at h
    | cons y b =>
      simp only [List.flatMap_cons, List.cons_append, List.nil_append, List.cons.injEq, Item.uint.injEq] at h
      rw [ih b h.2.2]
      have : x = y := Prod.ext h.1 h.2.1
      rw [this]

theorem withdrawalItems_flat (l : List (Bytes × Nat)) :
    withdrawalItems l = (l.map fun e => (Item.bstr e.1, Item.uint e.2)).flatMap fun kv => [kv.1, kv.2] := by
  induction l with
  | nil => rfl
  | cons e l ih => obtain ⟨c, v⟩ := e; simp [withdrawalItems, ih]

theorem withdrawalsC (ws : List (Bytes × Nat)) (h : StrictSorted bytesLt (ws.map (·.1))) :
    MapOf BytesAny UInt (.map (withdrawalItems ws)) := by
  refine ⟨_, by rw [withdrawalItems_flat], ?_, ?_⟩
  · rw [List.map_map]
    have hnd := sorted_nodup bytesLt_order _ h
    have : (ws.map (Prod.fst ∘ fun e => (Item.bstr e.1, Item.uint e.2))) = (ws.map (·.1)).map Item.bstr := by
      rw [List.map_map]; rfl
    rw [this]
    refine List.Pairwise.map _ ?_ hnd
    intro a b hab e; injection e with e; exact hab e
  · intro kv hkv
    obtain ⟨e, he, rfl⟩ := List.mem_map.mp hkv
    exact ⟨⟨_, rfl⟩, ⟨_, rfl⟩⟩

theorem inputsC (ins : List TxIn) (hs : StrictSorted TxIn.lt ins) (h : ∀ i ∈ ins, InRep i) :
    (ins.map fun i => Item.array i.ser).Nodup ∧ ∀ x ∈ ins.map fun i => Item.array i.ser, TxInC x := by
  constructor
  · refine List.Pairwise.map _ ?_ (sorted_nodup txInLt_order _ hs)
    intro a b hab e
    injection e with e
    apply hab
    cases a; cases b
    simp_all [TxIn.ser]
  · intro x hx
    obtain ⟨i, hi, rfl⟩ := List.mem_map.mp hx
    exact ⟨_, rfl, ⟨_, rfl, (h i hi).1⟩, ⟨_, rfl⟩, trivial⟩

/-- Entries of the body map. -/
def bodyPairs (b : TxBody) (cs : List (List Item)) : List (Nat × Item) :=
  [(0, .array (b.inputs.map fun i => .array i.ser)), (1, .array (b.outputs.map fun o => .array o.ser)),
   (2, .uint b.fee), (3, .uint b.ttl)]
  ++ (if b.certificates = [] then [] else [(4, .array (cs.map .array))])
  ++ (if b.withdrawals = [] then [] else [(5, .map (withdrawalItems b.withdrawals))])
  ++ (b.metadataHash.elim [] fun h => [(7, .bstr h)])

theorem bodyPairs_flat (b : TxBody) (cs : List (List Item)) :
    (bodyPairs b cs).flatMap (fun kv => [Item.uint kv.1, kv.2]) =
      [.uint 0, .array (b.inputs.map fun i => .array i.ser),
        .uint 1, .array (b.outputs.map fun o => .array o.ser),
        .uint 2, .uint b.fee, .uint 3, .uint b.ttl]
       ++ (if b.certificates = [] then [] else [.uint 4, .array (cs.map .array)])
       ++ withdrawalsEntry b.withdrawals ++ metadataEntry b.metadataHash := by
  unfold bodyPairs withdrawalsEntry
  by_cases h1 : b.certificates = [] <;> by_cases h2 : b.withdrawals = [] <;> cases h3 : b.metadataHash <;>
    simp [h1, h2, metadataEntry]

/-- **C64** (bodies): a serialized body conforms iff all its certificates do. -/
theorem C64_body (b : TxBody) (h : BodyRep b) (l : List Item) (hl : b.ser = .ok l) :
    TxBodyC (.map l) ↔ ∀ c ∈ b.certificates, CertConforms c := by
  obtain ⟨cs, hcs, rfl⟩ := body_ser_ok b l hl
  obtain ⟨⟨_, hi1, hi2⟩, ⟨_, ho⟩, _, _, ⟨_, hc⟩, ⟨_, hw, _⟩, hm⟩ := h
  have hz := (mapOut_eq_ok _ _ _).mp hcs
  rw [← bodyPairs_flat]
  constructor
  · rintro ⟨ps, hps, _, hall, _⟩
    injection hps with hps
    have e := flatk_inj _ _ hps
    intro c hcm
    have hne : b.certificates ≠ [] := List.ne_nil_of_mem hcm
    have hmem : (4, Item.array (cs.map .array)) ∈ ps := by
      rw [← e]; simp [bodyPairs, hne]
    obtain ⟨p, hp, hpv⟩ := hall _ hmem
    have hp : p = ArrayOf CertificateC := by simpa using hp
    subst hp
    obtain ⟨x, hx, hxa⟩ := hpv
    injection hx with hx; subst hx
    obtain ⟨i, hi, rfl⟩ := List.mem_iff_getElem.mp hcm
    have hser := hz.2 (b.certificates[i], cs[i]'(by omega)) (by
      rw [List.mem_iff_getElem]; exact ⟨i, by simp; omega, by simp⟩)
    exact (C64_certificate _ (hc _ hcm) _ hser).mp (hxa _ (List.mem_map_of_mem (List.getElem_mem _)))
  · intro hcc
    refine ⟨bodyPairs b cs, rfl, ?_, ?_, ?_⟩
    · unfold bodyPairs
      by_cases h1 : b.certificates = [] <;> by_cases h2 : b.withdrawals = [] <;> cases h3 : b.metadataHash <;>
        simp [h1, h2]
    · intro kv hkv
      simp only [bodyPairs, List.mem_append, List.mem_cons, List.not_mem_nil, or_false] at hkv
      rcases hkv with (((rfl | rfl | rfl | rfl) | hkv) | hkv) | hkv
      · exact ⟨fun i => ∃ l, i = .array l ∧ l.Nodup ∧ ∀ x ∈ l, TxInC x, by simp, _, rfl, inputsC _ hi1 hi2⟩
      · refine ⟨ArrayOf TxOutC, by simp, _, rfl, ?_⟩
        intro x hx
        obtain ⟨o, ho', rfl⟩ := List.mem_map.mp hx
        exact ⟨_, rfl, ⟨_, rfl⟩, ⟨_, rfl⟩, trivial⟩
      · exact ⟨UInt, by simp, _, rfl⟩
      · exact ⟨UInt, by simp, _, rfl⟩
      · split at hkv
        · simp at hkv
        · simp only [List.mem_singleton] at hkv; subst hkv
          refine ⟨ArrayOf CertificateC, by simp, _, rfl, ?_⟩
          intro x hx
          obtain ⟨y, hy, rfl⟩ := List.mem_map.mp hx
          obtain ⟨c, hcm, hs⟩ := (certs_ok _ _ hcs).2 y hy
          exact (C64_certificate c (hc c hcm) y hs).mpr (hcc c hcm)
      · split at hkv
        · simp at hkv
        · simp only [List.mem_singleton] at hkv; subst hkv
          exact ⟨MapOf BytesAny UInt, by simp, withdrawalsC _ hw⟩
      · cases hmh : b.metadataHash with
        | none => rw [hmh] at hkv; simp at hkv
        | some x =>
          rw [hmh] at hkv
          simp only [Option.elim_some, List.mem_singleton] at hkv; subst hkv
          exact ⟨BytesN 32, by simp, _, rfl, hm x hmh⟩
    · intro r hr
      simp only [List.mem_cons, List.not_mem_nil, or_false] at hr
      rcases hr with rfl | rfl | rfl | rfl <;> simp [bodyPairs]

/-- Entries of the witness map. -/
def witsPairs (w : WitnessSet) : List (Nat × Item) :=
  (if w.vkeys = [] then [] else [(0, .array (w.vkeys.map fun v => .array v.ser))])
  ++ (if w.multisig.isEmpty then [] else [(1, .array (serScripts w.multisig))])
  ++ (if w.bootstrap = [] then [] else [(2, .array [])])

/-- **C64** (witness sets): conforms iff no script has an empty node (the bootstrap witnesses
are written as an empty list). -/
theorem C64_witness_set (w : WitnessSet) (h : WitsRep w) :
    WitsC (.map w.ser) ↔ ∀ s ∈ w.multisig, ScriptFull s := by
  have flat : w.ser = (witsPairs w).flatMap fun kv => [Item.uint kv.1, kv.2] := by
    unfold witsPairs WitnessSet.ser vkeysEntry multisigEntry bootstrapEntry
    by_cases h1 : w.vkeys = [] <;> by_cases h2 : w.multisig.isEmpty = true <;> by_cases h3 : w.bootstrap = [] <;>
      simp [h1, h2, h3]
  rw [flat]
  constructor
  · rintro ⟨ps, hps, _, hall, _⟩
    injection hps with hps
    have e := flatk_inj _ _ hps
    intro s hs
    have hne : ¬ w.multisig.isEmpty = true := by
      rw [List.isEmpty_iff]; exact List.ne_nil_of_mem hs
    have hmem : (1, Item.array (serScripts w.multisig)) ∈ ps := by
      rw [← e]; simp [witsPairs, hne]
    obtain ⟨p, hp, hpv⟩ := hall _ hmem
    simp only [List.nil_append, List.mem_cons, Prod.mk.injEq, List.not_mem_nil, or_false] at hp
    rcases hp with hp | hp | hp
    · simp at hp
    · rw [hp.2] at hpv
      obtain ⟨x, hx, hxa⟩ := hpv
      injection hx with hx; subst hx
      exact (C64_script s (h.2.2 s hs)).mp (hxa _ ((mem_serScripts _ _).mpr ⟨s, hs, rfl⟩))
    · simp at hp
  · intro hf
    refine ⟨witsPairs w, rfl, ?_, ?_, by simp⟩
    · unfold witsPairs
      by_cases h1 : w.vkeys = [] <;> by_cases h2 : w.multisig.isEmpty = true <;> by_cases h3 : w.bootstrap = [] <;>
        simp [h1, h2, h3]
    · intro kv hkv
      simp only [witsPairs, List.mem_append] at hkv
      rcases hkv with (hkv | hkv) | hkv
      · split at hkv
        · simp at hkv
        · simp only [List.mem_singleton] at hkv; subst hkv
          refine ⟨ArrayOf (Group [BytesN 32, BytesN 64]), by simp, _, rfl, ?_⟩
          intro x hx
          obtain ⟨v, hv, rfl⟩ := List.mem_map.mp hx
          exact ⟨_, rfl, ⟨_, rfl, (h.1.2 v hv).1⟩, ⟨_, rfl, (h.1.2 v hv).2⟩, trivial⟩
      · split at hkv
        · simp at hkv
        · simp only [List.mem_singleton] at hkv; subst hkv
          refine ⟨ArrayOf MultisigC, by simp, _, rfl, ?_⟩
          intro x hx
          obtain ⟨s, hs, rfl⟩ := (mem_serScripts _ _).mp hx
          exact (C64_script s (h.2.2 s hs)).mpr (hf s hs)
      · split at hkv
        · simp at hkv
        · simp only [List.mem_singleton] at hkv; subst hkv
          exact ⟨ArrayOf (Group [BytesN 32, BytesN 64, BytesN 32, BytesAny]), by simp, [], rfl, by simp⟩

/-- **C64** (transactions): a serialized transaction conforms iff body and witness set do and it
carries no metadata (with metadata the third element is missing altogether). -/
theorem C64_transaction_partial (t : Tx) (h : TxRep t) (l : List Item) (hl : t.ser = .ok l) :
    TxC (.array l) ↔ (∀ c ∈ t.body.certificates, CertConforms c) ∧
      (∀ s ∈ t.wits.multisig, ScriptFull s) ∧ t.metadata = false := by
  unfold Tx.ser at hl
  obtain ⟨b, hb, e⟩ := Out.bind_eq_ok.mp hl
  simp only [Out.ok.injEq] at e; subst e
  rw [← C64_body _ h.1 b hb, ← C64_witness_set _ h.2]
  cases hmd : t.metadata with
  | true =>
    simp only [if_true, List.append_nil, reduceCtorEq, and_false, iff_false]
    rintro ⟨x, hx, hm⟩
    injection hx with hx; subst hx
    simp [Matches] at hm
  | false =>
    simp only [Bool.false_eq_true, if_false, List.cons_append, List.nil_append, and_true]
    constructor
    · rintro ⟨x, hx, hm⟩
      injection hx with hx; subst hx
      exact ⟨hm.1, hm.2.1⟩
    · rintro ⟨h1, h2⟩
      exact ⟨_, rfl, h1, h2, trivial, trivial⟩

/-- A pool registration without metadata, as the C++ tests build it, does not conform. -/
example : ¬ CertConforms (.poolReg {
    operator := List.replicate 28 1, vrfKeyHash := List.replicate 32 2, pledge := 1, cost := 170000000, margin := ⟨1, 10⟩, rewardAccount := [0xe1], owners := [List.replicate 28 3],
    relays := [.multi (ascii "r.io")], metadata := none }) := by
  simp [CertConforms]

end Cardano.Ledger
