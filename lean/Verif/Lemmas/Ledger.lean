import Verif.Lemmas.Order
import Verif.Lemmas.Cbor

namespace Cardano.Ledger

open Cardano.Cbor Cardano.Spec.Ledger

/-! ## Entry points -/

theorem deserializeArray_enc {α} (f : List Item → Out α) (l : List Item) (rest : Bytes)
    (h : WF (.array l)) : deserializeArray f (encArray l ++ rest) = f l := by
  unfold deserializeArray encArray
  rw [parse_enc_append _ h]
  rfl

theorem deserializeMap_enc {α} (f : List Item → Out α) (l : List Item) (rest : Bytes)
    (h : WF (.map l)) : deserializeMap f (encMap l ++ rest) = f l := by
  unfold deserializeMap encMap
  rw [parse_enc_append _ h]
  rfl

theorem deserializeTag_enc {α} (f : Nat → Item → Out α) (n : Nat) (i : Item) (rest : Bytes)
    (h : WF (.tag n i)) : deserializeTag f (enc (.tag n i) ++ rest) = f n i := by
  unfold deserializeTag
  rw [parse_enc_append _ h]

theorem reqLen_ok (e : Exc) (n : Nat) (b : Bytes) (h : b.length = n) : reqLen e n b = .ok b := by
  simp [reqLen, h]

theorem reqLen_throw (e : Exc) (n : Nat) (b : Bytes) (h : b.length ≠ n) : reqLen e n b = .throw e := by
  simp [reqLen, h]

theorem mapOut_ok {α β} (f : α → Out β) (g : α → β) (l : List α) (h : ∀ a ∈ l, f a = .ok (g a)) :
    mapOut f l = .ok (l.map g) := by
  induction l with
  | nil => rfl
  | cons a l ih =>
    simp [mapOut, h a (by simp), ih (fun b hb => h b (by simp [hb]))]

theorem mapOut_map {α β γ} (f : β → Out γ) (g : α → β) (l : List α) :
    mapOut f (l.map g) = mapOut (fun a => f (g a)) l := by
  induction l with
  | nil => rfl
  | cons a l ih => simp [mapOut, ih]

theorem mapOut_eq_ok {α β} (f : α → Out β) (l : List α) (r : List β) :
    mapOut f l = .ok r ↔ List.length r = l.length ∧ ∀ p ∈ l.zip r, f p.1 = .ok p.2 := by
  induction l generalizing r with
  | nil => cases r <;> simp [mapOut]
  | cons a l ih =>
    cases r with
    | nil => simp only [mapOut, Out.bind_eq_ok]; simp
    | cons b r =>
      simp only [mapOut, Out.bind_eq_ok, List.zip_cons_cons, List.mem_cons, List.length_cons]
      constructor
      · rintro ⟨b', h1, bs, h2, h3⟩
        simp only [Out.ok.injEq, List.cons.injEq] at h3
        obtain ⟨rfl, rfl⟩ := h3
        have := (ih bs).mp h2
        refine ⟨by omega, ?_⟩
        rintro p (rfl | hp)
        · exact h1
        · exact this.2 p hp
      · rintro ⟨hl, h⟩
        exact ⟨b, h (a, b) (by simp), r, (ih r).mpr ⟨by omega, fun p hp => h p (by simp [hp])⟩, rfl⟩

/-! ## Well-formed items -/

theorem wf_bstr28 {b : Bytes} (h : b.length = 28) : WF (.bstr b) := WF.bstr (by omega)
theorem wf_bstrN {b : Bytes} (n : Nat) (hn : n < 2 ^ 64) (h : b.length = n) : WF (.bstr b) := WF.bstr (by omega)

theorem fits_lt {α} {l : List α} (h : Fits l) : l.length < 2 ^ 64 := by unfold Fits at h; omega

theorem wf_array {l : List Item} (h : l.length < 2 ^ 64) (hl : ∀ i ∈ l, WF i) : WF (.array l) := WF.array h hl

theorem rat_wf (r : Rational) (h : RatRep r) : WF r.ser := by
  refine WF.tag (by omega) (WF.array (by simp) ?_)
  intro i hi
  simp only [List.mem_cons, List.not_mem_nil, or_false] at hi
  rcases hi with rfl | rfl
  · exact WF.uint h.1
  · exact WF.uint h.2

theorem meta_wf (m : PoolMetadata) (h : MetaRep m) : WF (.array m.ser) := by
  refine WF.array (by simp [PoolMetadata.ser]) ?_
  intro i hi
  simp only [PoolMetadata.ser, List.mem_cons, List.not_mem_nil, or_false] at hi
  rcases hi with rfl | rfl
  · exact WF.tstr (fits_lt h.1)
  · exact WF.bstr (by have := h.2; omega)

theorem port_wf (p : Option Nat) (h : ∀ q ∈ p, q < 2 ^ 16) : WF (portItem p) := by
  cases p with
  | none => exact WF.null
  | some q => exact WF.uint (by have := h q rfl; omega)

theorem relay_wf (r : Relay) (h : RelayRep r) (l : List Item) (hl : r.ser = .ok l) : WF (.array l) := by
  cases r with
  | empty => simp only [Relay.ser, Out.ok.injEq] at hl; subst hl; exact WF.array (by simp) (by simp)
  | addr v4 v6 port =>
    obtain ⟨h4, h6, hp⟩ := h
    cases v4 with
    | some v4 =>
      simp only [Relay.ser, Out.ok.injEq] at hl; subst hl
      refine WF.array (by simp) ?_
      intro i hi
      simp only [List.mem_cons, List.not_mem_nil, or_false] at hi
      rcases hi with rfl | rfl | rfl | rfl
      · exact WF.uint (by omega)
      · exact port_wf port hp
      · exact WF.bstr (by have := h4 v4 rfl; omega)
      · exact WF.null
    | none =>
      cases v6 with
      | some v6 => simp [Relay.ser] at hl
      | none =>
        simp only [Relay.ser, Out.ok.injEq] at hl; subst hl
        refine WF.array (by simp) ?_
        intro i hi
        simp only [List.mem_cons, List.not_mem_nil, or_false] at hi
        rcases hi with rfl | rfl
        · exact WF.uint (by omega)
        · exact port_wf port hp
  | name dns port =>
    simp only [Relay.ser, Out.ok.injEq] at hl; subst hl
    refine WF.array (by simp) ?_
    intro i hi
    simp only [List.mem_cons, List.not_mem_nil, or_false] at hi
    rcases hi with rfl | rfl | rfl
    · exact WF.uint (by omega)
    · exact port_wf port h.2
    · exact WF.tstr (fits_lt h.1)
  | multi dns =>
    simp only [Relay.ser, Out.ok.injEq] at hl; subst hl
    refine WF.array (by simp) ?_
    intro i hi
    simp only [List.mem_cons, List.not_mem_nil, or_false] at hi
    rcases hi with rfl | rfl
    · exact WF.uint (by omega)
    · exact WF.tstr (fits_lt h)

theorem cred_wf (c : StakeCredential) (h : CredRep c) : WF (.array c.ser) := by
  refine WF.array (by simp [StakeCredential.ser]) ?_
  intro i hi
  simp only [StakeCredential.ser, List.mem_cons, List.not_mem_nil, or_false] at hi
  rcases hi with rfl | rfl
  · refine WF.uint ?_; cases c.type <;> simp [CredType.num]
  · exact WF.bstr (by have : _ = _ := h; omega)

theorem mirEntries_length (l : List (StakeCredential × Nat)) : (mirEntries l).length = 2 * l.length := by
  induction l with
  | nil => rfl
  | cons e l ih => obtain ⟨c, v⟩ := e; simp only [mirEntries, List.length_cons, ih]; omega

theorem mirEntries_wf (l : List (StakeCredential × Nat)) (h : ∀ e ∈ l, CredRep e.1 ∧ U64 e.2) :
    ∀ i ∈ mirEntries l, WF i := by
  induction l with
  | nil => simp [mirEntries]
  | cons e l ih =>
    obtain ⟨c, v⟩ := e
    have he := h (c, v) (by simp)
    intro i hi
    simp only [mirEntries, List.mem_cons] at hi
    rcases hi with rfl | rfl | hi
    · exact cred_wf c he.1
    · exact WF.uint he.2
    · exact ih (fun e he => h e (by simp [he])) i hi

theorem mir_wf (m : MIR) (h : MirRep m) : WF (.array m.ser) := by
  refine WF.array (by simp [MIR.ser]) ?_
  intro i hi
  simp only [MIR.ser, List.mem_cons, List.not_mem_nil, or_false] at hi
  rcases hi with rfl | rfl
  · refine WF.uint ?_; cases m.source <;> simp [RewardSource.num]
  · exact WF.map (by rw [mirEntries_length]; exact h.1) (by rw [mirEntries_length]; omega)
      (mirEntries_wf _ h.2)

theorem in_wf (i : TxIn) (h : InRep i) : WF (.array i.ser) := by
  refine WF.array (by simp [TxIn.ser]) ?_
  intro j hj
  simp only [TxIn.ser, List.mem_cons, List.not_mem_nil, or_false] at hj
  rcases hj with rfl | rfl
  · exact WF.bstr (by have := h.1; omega)
  · exact WF.uint h.2

theorem out_wf (o : TxOut) (h : OutRep o) : WF (.array o.ser) := by
  refine WF.array (by simp [TxOut.ser]) ?_
  intro j hj
  simp only [TxOut.ser, List.mem_cons, List.not_mem_nil, or_false] at hj
  rcases hj with rfl | rfl
  · exact WF.bstr (fits_lt h.1)
  · exact WF.uint h.2

/-- The relays of a pool, serialized one by one. -/
theorem relays_ok (rs : List Relay) (l : List (List Item)) (h : mapOut Relay.ser rs = .ok l) :
    l.length = rs.length ∧ ∀ x ∈ l, ∃ r ∈ rs, r.ser = .ok x := by
  have := (mapOut_eq_ok _ _ _).mp h
  refine ⟨this.1, ?_⟩
  intro x hx
  obtain ⟨i, hi, rfl⟩ := List.mem_iff_getElem.mp hx
  refine ⟨rs[i]'(by omega), List.getElem_mem _, ?_⟩
  exact this.2 (rs[i]'(by omega), l[i]) (by
    rw [List.mem_iff_getElem]; exact ⟨i, by simp; omega, by simp⟩)

theorem pool_ser_ok (p : PoolParams) (l : List Item) (h : p.ser = .ok l) :
    ∃ rs, mapOut Relay.ser p.relays = .ok rs ∧
      l = [.bstr p.operator, .bstr p.vrfKeyHash, .uint p.pledge, .uint p.cost, p.margin.ser,
        .bstr p.rewardAccount] ++ ownersItem p.owners ++
        (if p.relays = [] then [] else [.array (rs.map .array)]) ++ metadataItem p.metadata := by
  unfold PoolParams.ser relaysItem at h
  by_cases e : p.relays = []
  · rw [if_pos e] at h
    refine ⟨[], by rw [e]; rfl, ?_⟩
    simp only [Out.ok_bind, Out.ok.injEq] at h
    rw [← h, if_pos e]
  · rw [if_neg e] at h
    simp only [Out.bind_eq_ok] at h
    obtain ⟨x, ⟨rs, h1, h2⟩, h3⟩ := h
    simp only [Out.ok.injEq] at h2 h3
    exact ⟨rs, h1, by rw [if_neg e, ← h3, ← h2]⟩

theorem pool_wf (p : PoolParams) (h : PoolRep p) (l : List Item) (hl : p.ser = .ok l) :
    l.length ≤ 9 ∧ ∀ i ∈ l, WF i := by
  obtain ⟨h1, h2, h3, h4, h5, h6, ⟨h7, _, h8⟩, ⟨h9, h10⟩, h11⟩ := h
  obtain ⟨rs, hrs, rfl⟩ := pool_ser_ok p l hl
  obtain ⟨hlen, hr⟩ := relays_ok _ _ hrs
  constructor
  · simp only [ownersItem, List.length_append, List.length_cons, List.length_nil]
    have a : (if p.owners = [] then ([] : List Item) else [.array (p.owners.map .bstr)]).length ≤ 1 := by
      split <;> simp
    have b : (if p.relays = [] then ([] : List Item) else [.array (rs.map .array)]).length ≤ 1 := by
      split <;> simp
    have c : (metadataItem p.metadata).length ≤ 1 := by cases p.metadata <;> simp [metadataItem]
    omega
  · intro i hi
    simp only [List.mem_append, List.mem_cons, List.not_mem_nil, or_false] at hi
    rcases hi with ((h | h) | h) | h
    · rcases h with rfl | rfl | rfl | rfl | rfl | rfl
      · exact WF.bstr (by omega)
      · exact WF.bstr (by omega)
      · exact WF.uint h3
      · exact WF.uint h4
      · exact rat_wf _ h5
      · exact WF.bstr (fits_lt h6)
    · unfold ownersItem at h
      split at h
      · simp at h
      · simp only [List.mem_singleton] at h; subst h
        refine WF.array (by simpa using fits_lt h7) ?_
        intro i hi
        obtain ⟨o, ho, rfl⟩ := List.mem_map.mp hi
        exact WF.bstr (by have := h8 o ho; omega)
    · split at h
      · simp at h
      · simp only [List.mem_singleton] at h; subst h
        refine WF.array (by rw [List.length_map, hlen]; exact (fits_lt h9)) ?_
        intro i hi
        obtain ⟨o, ho, rfl⟩ := List.mem_map.mp hi
        obtain ⟨r, hr1, hr2⟩ := hr o ho
        exact relay_wf r (h10 r hr1) o hr2
    · cases hm : p.metadata with
      | none => rw [hm] at h; simp [metadataItem] at h
      | some m =>
        rw [hm] at h
        simp only [metadataItem, List.mem_singleton] at h; subst h
        exact meta_wf m (h11 m hm)

theorem cert_wf (c : Certificate) (h : CertRep c) (l : List Item) (hl : c.ser = .ok l) : WF (.array l) := by
  cases c with
  | empty => simp only [Certificate.ser, Out.ok.injEq] at hl; subst hl; exact WF.array (by simp) (by simp)
  | stakeReg c =>
    simp only [Certificate.ser, Out.ok.injEq] at hl; subst hl
    refine WF.array (by simp) ?_
    intro i hi
    simp only [List.mem_cons, List.not_mem_nil, or_false] at hi
    rcases hi with rfl | rfl
    · exact WF.uint (by omega)
    · exact cred_wf c h
  | stakeDereg c =>
    simp only [Certificate.ser, Out.ok.injEq] at hl; subst hl
    refine WF.array (by simp) ?_
    intro i hi
    simp only [List.mem_cons, List.not_mem_nil, or_false] at hi
    rcases hi with rfl | rfl
    · exact WF.uint (by omega)
    · exact cred_wf c h
  | delegation c pool =>
    simp only [Certificate.ser, Out.ok.injEq] at hl; subst hl
    refine WF.array (by simp) ?_
    intro i hi
    simp only [List.mem_cons, List.not_mem_nil, or_false] at hi
    rcases hi with rfl | rfl | rfl
    · exact WF.uint (by omega)
    · exact cred_wf c h.1
    · exact WF.bstr (by have := h.2; omega)
  | poolReg p =>
    simp only [Certificate.ser, Out.bind_eq_ok] at hl
    obtain ⟨ps, h1, h2⟩ := hl
    simp only [Out.ok.injEq] at h2; subst h2
    have := pool_wf p h ps h1
    refine WF.array (by simp; omega) ?_
    intro i hi
    rcases List.mem_cons.mp hi with rfl | hi
    · exact WF.uint (by omega)
    · exact this.2 i hi
  | poolRetire pool epoch =>
    simp only [Certificate.ser, Out.ok.injEq] at hl; subst hl
    refine WF.array (by simp) ?_
    intro i hi
    simp only [List.mem_cons, List.not_mem_nil, or_false] at hi
    rcases hi with rfl | rfl | rfl
    · exact WF.uint (by omega)
    · exact WF.bstr (by have := h.1; omega)
    · exact WF.uint h.2
  | genesisDeleg g d v =>
    simp only [Certificate.ser, Out.ok.injEq] at hl; subst hl
    obtain ⟨h1, h2, h3⟩ := h
    refine WF.array (by simp) ?_
    intro i hi
    simp only [List.mem_cons, List.not_mem_nil, or_false] at hi
    rcases hi with rfl | rfl | rfl | rfl
    · exact WF.uint (by omega)
    · exact WF.bstr (by omega)
    · exact WF.bstr (by omega)
    · exact WF.bstr (by omega)
  | mir m =>
    simp only [Certificate.ser, Out.ok.injEq] at hl; subst hl
    refine WF.array (by simp) ?_
    intro i hi
    simp only [List.mem_cons, List.not_mem_nil, or_false] at hi
    rcases hi with rfl | rfl
    · exact WF.uint (by omega)
    · exact mir_wf m h

theorem serScripts_length (l : List Script) : (serScripts l).length = l.length := by
  induction l with
  | nil => rfl
  | cons s l ih => simp [serScripts, ih]

theorem mem_serScripts (l : List Script) (i : Item) :
    i ∈ serScripts l ↔ ∃ s ∈ l, i = .array s.ser := by
  induction l with
  | nil => simp [serScripts]
  | cons s l ih => simp [serScripts, ih]

theorem script_wf (s : Script) (h : ScriptRep s) : WF (.array s.ser) := by
  induction h with
  | empty => exact WF.array (by simp [Script.ser]) (by simp [Script.ser])
  | pubkey h =>
    refine WF.array (by simp [Script.ser]) ?_
    intro i hi
    simp only [Script.ser, List.mem_cons, List.not_mem_nil, or_false] at hi
    rcases hi with rfl | rfl
    · exact WF.uint (by omega)
    · exact WF.bstr (by omega)
  | all hf _ ih =>
    refine WF.array (by simp [Script.ser]) ?_
    intro i hi
    simp only [Script.ser, List.mem_cons, List.not_mem_nil, or_false] at hi
    rcases hi with rfl | rfl
    · exact WF.uint (by omega)
    · refine WF.array (by rw [serScripts_length]; exact (fits_lt hf)) ?_
      intro i hi
      obtain ⟨s, hs, rfl⟩ := (mem_serScripts _ _).mp hi
      exact ih s hs
  | any hf _ ih =>
    refine WF.array (by simp [Script.ser]) ?_
    intro i hi
    simp only [Script.ser, List.mem_cons, List.not_mem_nil, or_false] at hi
    rcases hi with rfl | rfl
    · exact WF.uint (by omega)
    · refine WF.array (by rw [serScripts_length]; exact (fits_lt hf)) ?_
      intro i hi
      obtain ⟨s, hs, rfl⟩ := (mem_serScripts _ _).mp hi
      exact ih s hs
  | nOfK hn hf _ ih =>
    refine WF.array (by simp [Script.ser]) ?_
    intro i hi
    simp only [Script.ser, List.mem_cons, List.not_mem_nil, or_false] at hi
    rcases hi with rfl | rfl | rfl
    · exact WF.uint (by omega)
    · exact WF.uint hn
    · refine WF.array (by rw [serScripts_length]; exact (fits_lt hf)) ?_
      intro i hi
      obtain ⟨s, hs, rfl⟩ := (mem_serScripts _ _).mp hi
      exact ih s hs

end Cardano.Ledger
