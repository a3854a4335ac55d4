import Verif.Spec.LedgerMeaning
import Verif.Props.LedgerSafe
import Verif.Lemmas.Order

/-! # Reading and writing transactions, against the meaning of their bytes (C99) -/

namespace Cardano.Ledger

open Cardano.Cbor Cardano.Spec.Ledger

/-! ## Reading -/

theorem lookup_flat (ps : List (Nat × Item)) (hd : (ps.map (·.1)).Nodup) (k : Nat) (v : Item) (h : (k, v) ∈ ps) :
    lookup k (flat .uint id ps) = some v := by
  induction ps with
  | nil => cases h
  | cons p ps ih =>
    obtain ⟨k', v'⟩ := p
    simp only [List.map_cons, List.nodup_cons] at hd
    simp only [flat, List.flatMap_cons, List.cons_append, List.nil_append, id, lookup]
    rcases List.mem_cons.mp h with h | h
    · simp only [Prod.mk.injEq] at h
      obtain ⟨rfl, rfl⟩ := h
      rw [if_pos rfl]
    · have : k' ≠ k := fun e => hd.1 (e ▸ List.mem_map_of_mem (f := (·.1)) h)
      rw [if_neg this]
      exact ih hd.2 h

theorem lookup_flat_none (ps : List (Nat × Item)) (k : Nat) (h : k ∉ ps.map (·.1)) :
    lookup k (flat .uint id ps) = none := by
  induction ps with
  | nil => rfl
  | cons p ps ih =>
    obtain ⟨k', v'⟩ := p
    simp only [List.map_cons, List.mem_cons, not_or] at h
    simp only [flat, List.flatMap_cons, List.cons_append, List.nil_append, id, lookup]
    rw [if_neg (Ne.symm h.1)]
    exact ih h.2

theorem mapOut_forall₂ {α β γ} {f : α → Out β} {P : α → γ → Prop} (g : γ → β) {l : List α} {m : List γ}
    (h : List.Forall₂ P l m) (hf : ∀ a c, c ∈ m → P a c → f a = .ok (g c)) : mapOut f l = .ok (m.map g) := by
  induction h with
  | nil => rfl
  | cons h1 _ ih =>
    rw [mapOut, hf _ _ (by simp) h1, ih fun a c hc => hf a c (List.mem_cons_of_mem _ hc)]; rfl

theorem mapOut_forall₂_bad {α β γ} {f : α → Out β} {P : α → γ → Prop} {l : List α} {m : List γ} (h : List.Forall₂ P l m)
    (c : γ) (hc : c ∈ m) (hf : ∀ a, P a c → ∀ b, f a ≠ .ok b) : ∀ r, mapOut f l ≠ .ok r := by
  induction h with
  | nil => cases hc
  | cons h1 _ ih =>
    intro r hr
    rw [mapOut] at hr
    obtain ⟨b, e1, hr⟩ := Out.bind_eq_ok.mp hr
    obtain ⟨bs, e2, -⟩ := Out.bind_eq_ok.mp hr
    rcases List.mem_cons.mp hc with rfl | hc
    · exact hf _ h1 b e1
    · exact ih hc bs e2

theorem cred_read {i : Item} {c : StakeCredential} (h : CredMeans i c) : ∃ l, i = .array l ∧ StakeCredential.deser l = .ok c := by
  obtain ⟨t, b⟩ := c
  cases t <;> obtain ⟨rfl, hl⟩ := h <;>
    exact ⟨_, rfl, by simp [StakeCredential.deser, asUint, asBstr, untag, credTypeOf, reqLen, hl]⟩

theorem mirLoop_read {ps : List (Item × Item)} {es : List (StakeCredential × Nat)}
    (h : List.Forall₂ (fun (kv : Item × Item) (e : StakeCredential × Nat) => CredMeans kv.1 e.1 ∧ kv.2 = .uint e.2) ps es) :
    mirLoop (flat id id ps) = .ok es := by
  induction h with
  | nil => rfl
  | @cons kv e ps es h1 _ ih =>
    obtain ⟨k, v⟩ := kv
    obtain ⟨hc, hv⟩ := h1
    simp only at hc hv
    subst hv
    obtain ⟨l, rfl, hl⟩ := cred_read hc
    simp only [flat, id] at ih
    simp only [flat, List.flatMap_cons, List.cons_append, List.nil_append, id, mirLoop, asArray, untag, deref, Out.ok_bind, hl,
      asUint, ih]

theorem owners_read {os : List Item} {owners : List Bytes} (hs : StrictSorted bytesLt owners)
    (h : ∀ x, x ∈ os ↔ ∃ b ∈ owners, BytesMean 28 x b) (hl : ∀ b ∈ owners, b.length = 28) :
    ownersOf (some (.array os)) = .ok owners := by
  have hm : ∀ os : List Item, (∀ x ∈ os, ∃ b, BytesMean 28 x b) →
      ∃ bs, mapOut ownerOf os = .ok bs ∧ ∀ b, b ∈ bs ↔ Item.bstr b ∈ os := by
    intro os
    induction os with
    | nil => intro _; exact ⟨[], rfl, by simp⟩
    | cons x os ih =>
      intro hx
      obtain ⟨b, rfl, hb⟩ := hx x (by simp)
      obtain ⟨bs, e, hbs⟩ := ih fun y hy => hx y (by simp [hy])
      refine ⟨b :: bs, ?_, fun y => by simp [hbs]⟩
      rw [mapOut, e]
      simp [ownerOf, asBstr, untag, deref, reqLen, hb]
  obtain ⟨bs, e, hbs⟩ := hm os fun x hx => by
    obtain ⟨b, _, hb⟩ := (h x).mp hx; exact ⟨b, hb⟩
  simp only [ownersOf, Option.bind_some, asArray, untag, e, Out.ok_bind]
  congr 1
  have s1 := foldl_setInsert bytesLt_order bs [] List.Pairwise.nil
  refine sorted_ext bytesLt_order _ _ s1.1 hs fun b => ?_
  rw [s1.2, hbs, h]
  constructor
  · rintro (hb | ⟨b', hb', e, -⟩)
    · cases hb
    · injection e with e; rw [e]; exact hb'
  · intro hb; exact Or.inr ⟨b, hb, rfl, hl b hb⟩

theorem cert_read {i : Item} {c : Certificate} (h : CertMeans i c) :
    (CertReadable c → certOf i = .ok (certRead c)) ∧ (¬ CertReadable c → ∀ c', certOf i ≠ .ok c') := by
  cases c with
  | empty => exact absurd h id
  | stakeReg c =>
    obtain ⟨x, rfl, hx⟩ := h
    obtain ⟨l, rfl, hl⟩ := cred_read hx
    refine ⟨fun _ => ?_, fun hn => absurd trivial hn⟩
    simp [certOf, asArray, untag, deref, Certificate.deser, asUint, credCert, hl, certRead]
  | stakeDereg c =>
    obtain ⟨x, rfl, hx⟩ := h
    obtain ⟨l, rfl, hl⟩ := cred_read hx
    refine ⟨fun _ => ?_, fun hn => absurd trivial hn⟩
    simp [certOf, asArray, untag, deref, Certificate.deser, asUint, credCert, hl, certRead]
  | delegation c pool =>
    obtain ⟨x, rfl, hx, hp⟩ := h
    obtain ⟨l, rfl, hl⟩ := cred_read hx
    refine ⟨fun _ => ?_, fun hn => absurd trivial hn⟩
    simp [certOf, asArray, asBstr, untag, deref, Certificate.deser, asUint, delegDeser, hl, hp, reqLen, certRead]
  | poolRetire pool epoch =>
    obtain ⟨rfl, hp⟩ := h
    refine ⟨fun _ => ?_, fun hn => absurd trivial hn⟩
    simp [certOf, asArray, asBstr, untag, deref, Certificate.deser, asUint, retireDeser, hp, reqLen, certRead]
  | genesisDeleg g d v =>
    obtain ⟨rfl, -⟩ := h
    refine ⟨fun hn => absurd hn id, fun _ c' => ?_⟩
    simp [certOf, asArray, asBstr, untag, deref, Certificate.deser, asUint, genesisDeser, Cbor.get]
  | mir m =>
    obtain ⟨x, rfl, ps, rfl, -, hp⟩ := h
    refine ⟨fun _ => ?_, fun hn => absurd trivial hn⟩
    have := mirLoop_read hp
    obtain ⟨src, creds⟩ := m
    cases src <;>
      simp [certOf, asArray, asMap, untag, deref, Certificate.deser, asUint, mirDeser, Cbor.get, MIR.deser, sourceOf, certRead] <;>
      rw [this] <;> rfl
  | poolReg p =>
    obtain ⟨os, rs, md, rfl, h1, h2, h3, h4, h5, -, -⟩ := h
    have ho := owners_read h3 h4 h5
    constructor
    · intro hd
      simp only [CertReadable] at hd
      simp [certOf, asArray, asBstr, untag, deref, Certificate.deser, asUint, poolRegDeser, marginOf, Rational.deser, h1, h2,
        reqLen, certRead, hd, ho]
    · intro hd c'
      simp only [CertReadable, not_not] at hd
      simp [certOf, asArray, asBstr, untag, deref, Certificate.deser, asUint, poolRegDeser, marginOf, Rational.deser, h1, h2,
        reqLen, hd]

theorem inputs_read {xs : List Item} {ins : List TxIn} (hs : StrictSorted TxIn.lt ins)
    (h1 : ∀ x ∈ xs, ∃ t ∈ ins, InMeans x t) (h2 : ∀ t ∈ ins, ∃ x ∈ xs, InMeans x t) :
    ∃ l, mapOut inputOf xs = .ok l ∧ l.foldl (fun s i => setInsert TxIn.lt i s) [] = ins := by
  have hm : ∀ xs : List Item, (∀ x ∈ xs, ∃ t, InMeans x t) →
      ∃ l, mapOut inputOf xs = .ok l ∧ ∀ t, t ∈ l ↔ ∃ x ∈ xs, InMeans x t := by
    intro xs
    induction xs with
    | nil => intro _; exact ⟨[], rfl, by simp⟩
    | cons x xs ih =>
      intro hx
      obtain ⟨t, rfl, ht⟩ := hx x (by simp)
      obtain ⟨l, e, hl⟩ := ih fun y hy => hx y (by simp [hy])
      refine ⟨t :: l, ?_, fun y => ?_⟩
      · rw [mapOut, e]
        simp [inputOf, asArray, asBstr, asUint, untag, deref, TxIn.deser, reqLen, ht]
      · rw [List.mem_cons, hl]
        constructor
        · rintro (rfl | ⟨x, hx, hy⟩)
          · exact ⟨_, List.mem_cons_self, rfl, ht⟩
          · exact ⟨x, List.mem_cons_of_mem _ hx, hy⟩
        · rintro ⟨x, hx, hy⟩
          rcases List.mem_cons.mp hx with rfl | hx
          · left
            obtain ⟨e, -⟩ := hy
            simp only [Item.array.injEq, List.cons.injEq, Item.bstr.injEq, Item.uint.injEq, and_true] at e
            cases y; cases t; simp_all
          · exact Or.inr ⟨x, hx, hy⟩
  obtain ⟨l, e, hl⟩ := hm xs fun x hx => by obtain ⟨t, _, ht⟩ := h1 x hx; exact ⟨t, ht⟩
  refine ⟨l, e, ?_⟩
  have s1 := foldl_setInsert txInLt_order l [] List.Pairwise.nil
  refine sorted_ext txInLt_order _ _ s1.1 hs fun t => ?_
  rw [s1.2, hl]
  constructor
  · rintro (hb | ⟨x, hx, ht⟩)
    · cases hb
    · obtain ⟨t', ht', e'⟩ := h1 x hx
      have : t = t' := by
        have e := ht.1.symm.trans e'.1
        simp only [Item.array.injEq, List.cons.injEq, Item.bstr.injEq, Item.uint.injEq, and_true] at e
        cases t; cases t'; simp_all
      rw [this]; exact ht'
  · intro ht; exact Or.inr (h2 t ht)

theorem withdrawalLoop_flat (ws : List (Bytes × Nat)) : ∀ acc : List (Bytes × Nat), StrictSorted bytesLt (acc.map (·.1)) →
    (ws.map (·.1)).Nodup → (∀ a ∈ ws.map (·.1), a ∉ acc.map (·.1)) →
    ∃ r, withdrawalLoop (flat .bstr .uint ws) acc = .ok r ∧ StrictSorted bytesLt (r.map (·.1)) ∧ ∀ e, e ∈ r ↔ e ∈ acc ∨ e ∈ ws := by
  induction ws with
  | nil => intro acc ha _ _; exact ⟨acc, rfl, ha, by simp⟩
  | cons w ws ih =>
    obtain ⟨a, n⟩ := w
    intro acc ha hd hn
    simp only [List.map_cons, List.nodup_cons, List.mem_cons, forall_eq_or_imp] at hd hn
    obtain ⟨r, h1, h2, h3⟩ := ih (mapAssign bytesLt a n acc) (mapAssign_sorted bytesLt_order a n acc ha) hd.2 (by
      intro b hb hm
      rw [keys_mapAssign bytesLt_order, mem_setInsert bytesLt_order] at hm
      rcases hm with rfl | hm
      · exact hd.1 hb
      · exact hn.2 b hb hm)
    refine ⟨r, ?_, h2, fun e => ?_⟩
    · rw [← h1]
      simp only [flat, List.flatMap_cons, List.cons_append, List.nil_append, withdrawalLoop, asBstr, asUint, untag, deref, Out.ok_bind]
    · rw [h3, mem_mapAssign bytesLt_order _ _ _ ha, List.mem_cons]
      constructor
      · rintro (h | h)
        · rcases h with h | ⟨h, -⟩
          · exact Or.inr (Or.inl h)
          · exact Or.inl h
        · exact Or.inr (Or.inr h)
      · rintro (h | rfl | h)
        · refine Or.inl (Or.inr ⟨h, fun e' => hn.1 ?_⟩)
          rw [← e']; exact List.mem_map_of_mem (f := (·.1)) h
        · exact Or.inl (Or.inl rfl)
        · exact Or.inr h

/-- The certificates of a body, as the reader gets them. -/
theorem certs_at {ps : List (Nat × Item)} (hd : (ps.map (·.1)).Nodup) {cs : List Certificate}
    (h : At ps 4 (cs = []) (ArrayMeans CertMeans cs)) : List.Forall₂ CertMeans (arrayAt 4 (flat .uint id ps)) cs := by
  rcases h with ⟨v, hv, xs, rfl, hx⟩ | ⟨hk, rfl⟩
  · simpa [arrayAt, lookup_flat ps hd 4 _ hv, asArray, untag] using hx
  · simp [arrayAt, lookup_flat_none ps 4 hk]

theorem body_read {i : Item} {b : TxBody} (h : BodyMeans i b) : ∃ m, i = .map m ∧
    ((∀ c ∈ b.certificates, CertReadable c) → TxBody.deser m =
      .ok { b with certificates := b.certificates.map certRead, update := false }) ∧
    ((∃ c ∈ b.certificates, ¬ CertReadable c) → ∀ b', TxBody.deser m ≠ .ok b') := by
  obtain ⟨ps, rfl, hd, -, ⟨xs, h0, -, hs, hx1, hx2⟩, ⟨v1, h1, os, rfl, ho⟩, h2, h3, h4, h5, -, h7⟩ := h
  obtain ⟨ins, e0, e0'⟩ := inputs_read hs hx1 hx2
  have a0 : arrayAt 0 (flat .uint id ps) = xs := by simp [arrayAt, lookup_flat ps hd 0 _ h0, asArray, untag]
  have a1 : arrayAt 1 (flat .uint id ps) = os := by simp [arrayAt, lookup_flat ps hd 1 _ h1, asArray, untag]
  have a2 : uintAt 2 (flat .uint id ps) = b.fee := by simp [uintAt, lookup_flat ps hd 2 _ h2, asUint, untag]
  have a3 : uintAt 3 (flat .uint id ps) = b.ttl := by simp [uintAt, lookup_flat ps hd 3 _ h3, asUint, untag]
  have e1 : mapOut outputOf os = .ok b.outputs := by
    have := mapOut_forall₂ (f := outputOf) id ho fun a c _ hc => by
      rw [show a = _ from hc]; simp [outputOf, asArray, asBstr, asUint, untag, deref, TxOut.deser]
    simpa using this
  have c4 := certs_at hd h4
  have e5 : withdrawalLoop (((lookup 5 (flat .uint id ps)).bind asMap).getD []) [] = .ok b.withdrawals := by
    rcases h5 with ⟨v, hv, ws, rfl, hn, hso, hp⟩ | ⟨hk, hw⟩
    · obtain ⟨r, w1, w2, w3⟩ := withdrawalLoop_flat ws [] List.Pairwise.nil hn (by simp)
      rw [lookup_flat ps hd 5 _ hv]
      simp only [Option.bind_some, asMap, untag, Option.getD_some, w1]
      congr 1
      exact map_ext bytesLt_order _ _ w2 hso fun e => by rw [w3, hp.mem_iff]; simp
    · rw [lookup_flat_none ps 5 hk, hw]; rfl
  have e7 : hashAt (flat .uint id ps) = .ok b.metadataHash := by
    rcases h7 with ⟨v, hv, h, rfl, hl, hb⟩ | ⟨hk, hb⟩
    · simp [hashAt, lookup_flat ps hd 7 _ hv, asBstr, untag, reqLen, hl, hb]
    · simp [hashAt, lookup_flat_none ps 7 hk, hb]
  refine ⟨_, rfl, fun hr => ?_, ?_⟩
  · have e4 : mapOut certOf (arrayAt 4 (flat .uint id ps)) = .ok (b.certificates.map certRead) :=
      mapOut_forall₂ certRead c4 fun a c hc ha => (cert_read ha).1 (hr c hc)
    simp only [TxBody.deser, a0, a1, a2, a3, e0, e1, e4, e5, e7, Out.ok_bind, e0']
  · rintro ⟨c, hc, hcr⟩ b' hb
    have e4 := mapOut_forall₂_bad (f := certOf) c4 c hc fun a ha => (cert_read ha).2 hcr
    simp only [TxBody.deser, a0, a1, e0, e1, Out.ok_bind] at hb
    obtain ⟨cs, h, -⟩ := Out.bind_eq_ok.mp hb
    exact e4 cs h

theorem wits_read {i : Item} {w : WitnessSet} (h : WitsMeans i w) : ∃ m, i = .map m ∧
    WitnessSet.deser m = .ok { vkeys := w.vkeys, multisig := [], bootstrap := [] } := by
  obtain ⟨ps, rfl, hd, -, h0, -⟩ := h
  refine ⟨_, rfl, ?_⟩
  have key : mapOut vkeyOf ((arrayAt 0 (flat .uint id ps)).filterMap asArray) = .ok w.vkeys := by
    rcases h0 with ⟨v, hv, xs, rfl, hx⟩ | ⟨hk, hw⟩
    · simp only [arrayAt, lookup_flat ps hd 0 _ hv, Option.bind_some, asArray, untag, Option.getD_some]
      clear hv
      generalize w.vkeys = ws at hx
      induction hx with
      | nil => rfl
      | @cons x w xs ws h1 _ ih =>
        obtain ⟨rfl, l1, l2⟩ := h1
        simp only [List.filterMap_cons, asArray, untag] at ih ⊢
        rw [mapOut, ih]
        simp [vkeyOf, Cbor.get, deref, asBstr, untag, byteArray, l1, l2]
        cases w
        simp only at l1 l2
        simp [List.take_of_length_le, l1, l2]
    · simp [arrayAt, lookup_flat_none ps 0 hk, hw, mapOut]
  simp only [WitnessSet.deser, key, Out.ok_bind]

/-- **C99** (reading).  Take any byte string whose first CBOR item — in any encoding the parser accepts — is a transaction of the Shelley
ledger, and the transaction `t` it means.  If no certificate is a genesis key delegation and no pool margin has
denominator 0, reading the bytes into a new object gives the inputs, outputs, fee, time to live, withdrawals, metadata hash, key
witnesses and certificates of `t`, except for relays and metadata of pool registrations, and without update, scripts, bootstrap
witnesses and metadata.  Otherwise reading does not succeed. -/
theorem C99_read (b : Bytes) (i : Item) (t : Tx) (hp : parse b = some i) (h : TxMeans i t) :
    ((∀ c ∈ t.body.certificates, CertReadable c) → Tx.deserialize {} b = .ok (txRead t)) ∧
    ((∃ c ∈ t.body.certificates, ¬ CertReadable c) → ∀ t', Tx.deserialize {} b ≠ .ok t') := by
  obtain ⟨bi, wi, m, rfl, hb, hw, -⟩ := h
  obtain ⟨mb, rfl, b1, b2⟩ := body_read hb
  obtain ⟨mw, rfl, w1⟩ := wits_read hw
  have e : Tx.deserialize {} b = Tx.deser {} [.map mb, .map mw, m] := by
    simp [Tx.deserialize, deserializeArray, hp, asArray, untag]
  rw [e]
  constructor
  · intro hr
    simp [Tx.deser, bodyAt, witsAt, asMap, untag, b1 hr, w1, txRead]
  · intro hr t' ht
    simp only [Tx.deser, bodyAt, List.getElem?_cons_zero, Option.bind_some, asMap, untag] at ht
    obtain ⟨b', h', -⟩ := Out.bind_eq_ok.mp ht
    exact b2 hr b' h'

/-! ## The transactions of the grammar are those that mean something, and they mean one thing -/

theorem forall₂_exists {α β} {P : α → β → Prop} : ∀ (l : List α), (∀ x ∈ l, ∃ y, P x y) → ∃ m, List.Forall₂ P l m
  | [], _ => ⟨[], .nil⟩
  | x :: l, h => by
    obtain ⟨y, hy⟩ := h x (by simp)
    obtain ⟨m, hm⟩ := forall₂_exists l fun z hz => h z (by simp [hz])
    exact ⟨y :: m, .cons hy hm⟩

theorem forall₂_unique {α β} {P : α → β → Prop} {l : List α} {m m' : List β}
    (hu : ∀ x y z, P x y → P x z → y = z) (h : List.Forall₂ P l m) (h' : List.Forall₂ P l m') : m = m' := by
  induction h generalizing m' with
  | nil => cases h'; rfl
  | cons h1 _ ih =>
    cases h' with
    | cons h2 h3 => rw [hu _ _ _ h1 h2, ih h3]

theorem forall₂_left {α β} {P : α → β → Prop} {l : List α} {m : List β} (h : List.Forall₂ P l m) : ∀ x ∈ l, ∃ y, P x y := by
  induction h with
  | nil => intro x hx; cases hx
  | cons h1 _ ih =>
    intro x hx
    rcases List.mem_cons.mp hx with rfl | hx
    · exact ⟨_, h1⟩
    · exact ih x hx

theorem cred_means_iff (i : Item) : StakeCredentialC i ↔ ∃ c, CredMeans i c := by
  constructor
  · rintro (⟨l, rfl, hm⟩ | ⟨l, rfl, hm⟩) <;>
      rcases l with _ | ⟨a, _ | ⟨b, _ | ⟨c, l⟩⟩⟩ <;> simp only [Matches, and_false] at hm <;>
      obtain ⟨rfl, ⟨h, rfl, hl⟩, -⟩ := hm
    · exact ⟨⟨.keyHash, h⟩, rfl, hl⟩
    · exact ⟨⟨.scriptHash, h⟩, rfl, hl⟩
  · rintro ⟨⟨t, h⟩, hc⟩
    cases t <;> obtain ⟨rfl, hl⟩ := hc
    · exact Or.inl ⟨_, rfl, rfl, ⟨h, rfl, hl⟩, trivial⟩
    · exact Or.inr ⟨_, rfl, rfl, ⟨h, rfl, hl⟩, trivial⟩

theorem cred_means_unique (i : Item) (c c' : StakeCredential) (h : CredMeans i c) (h' : CredMeans i c') : c = c' := by
  obtain ⟨t, b⟩ := c; obtain ⟨t', b'⟩ := c'
  cases t <;> cases t' <;> obtain ⟨rfl, -⟩ := h <;> obtain ⟨e, -⟩ := h' <;> simp_all

theorem opt_means_iff {α} {P : Item → α → Prop} {Q : Item → Prop} (h : ∀ i, Q i ↔ ∃ a, P i a) (i : Item) :
    OrNull Q i ↔ ∃ o, OptMeans P i o := by
  constructor
  · rintro (hq | rfl)
    · obtain ⟨a, ha⟩ := (h i).mp hq; exact ⟨some a, ha⟩
    · exact ⟨none, rfl⟩
  · rintro ⟨_ | a, ho⟩
    · exact Or.inr ho
    · exact Or.inl ((h i).mpr ⟨a, ho⟩)

theorem opt_means_unique {α} {P : Item → α → Prop} (hu : ∀ i a b, P i a → P i b → a = b) (hn : ∀ a, ¬ P .null a) (i : Item)
    (o o' : Option α) (h : OptMeans P i o) (h' : OptMeans P i o') : o = o' := by
  cases o <;> cases o' <;> simp only [OptMeans] at h h'
  · rfl
  · subst h; exact absurd h' (hn _)
  · subst h'; exact absurd h (hn _)
  · rw [hu i _ _ h h']

theorem port_iff (i : Item) : PortC i ↔ ∃ n, PortMeans i n := Iff.rfl
theorem port_unique (i : Item) (a b : Nat) (h : PortMeans i a) (h' : PortMeans i b) : a = b := by
  have := h.1.symm.trans h'.1; injection this
theorem bytes_iff (n : Nat) (i : Item) : BytesN n i ↔ ∃ b, BytesMean n i b := Iff.rfl
theorem bytes_unique (n : Nat) (i : Item) (a b : Bytes) (h : BytesMean n i a) (h' : BytesMean n i b) : a = b := by
  have := h.1.symm.trans h'.1; injection this

theorem meta_iff (i : Item) : PoolMetadataC i ↔ ∃ m, MetaMeans i m := by
  constructor
  · rintro ⟨l, rfl, hm⟩
    rcases l with _ | ⟨a, _ | ⟨b, _ | ⟨c, l⟩⟩⟩ <;> simp only [Matches, and_false] at hm
    obtain ⟨⟨u, rfl, hu⟩, ⟨h, rfl, hh⟩, -⟩ := hm
    exact ⟨⟨u, h⟩, rfl, hu, hh⟩
  · rintro ⟨m, rfl, hu, hh⟩
    exact ⟨_, rfl, ⟨_, rfl, hu⟩, ⟨_, rfl, hh⟩, trivial⟩

theorem meta_unique (i : Item) (m m' : PoolMetadata) (h : MetaMeans i m) (h' : MetaMeans i m') : m = m' := by
  have := h.1.symm.trans h'.1
  cases m; cases m'; simp_all

theorem relay_iff (i : Item) : RelayC i ↔ ∃ r, RelayMeans i r := by
  constructor
  · rintro (⟨l, rfl, hm⟩ | ⟨l, rfl, hm⟩ | ⟨l, rfl, hm⟩)
    · rcases l with _ | ⟨a, _ | ⟨b, _ | ⟨c, _ | ⟨d, _ | ⟨e, l⟩⟩⟩⟩⟩ <;> simp only [Matches, and_false] at hm
      obtain ⟨rfl, hp, h4, h6, -⟩ := hm
      obtain ⟨p, hp⟩ := (opt_means_iff port_iff _).mp hp
      obtain ⟨v4, h4⟩ := (opt_means_iff (bytes_iff 4) _).mp h4
      obtain ⟨v6, h6⟩ := (opt_means_iff (bytes_iff 16) _).mp h6
      exact ⟨.addr v4 v6 p, _, _, _, rfl, hp, h4, h6⟩
    · rcases l with _ | ⟨a, _ | ⟨b, _ | ⟨c, _ | ⟨d, l⟩⟩⟩⟩ <;> simp only [Matches, and_false] at hm
      obtain ⟨rfl, hp, ⟨d, rfl, hd⟩, -⟩ := hm
      obtain ⟨p, hp⟩ := (opt_means_iff port_iff _).mp hp
      exact ⟨.name d p, _, rfl, hp, hd⟩
    · rcases l with _ | ⟨a, _ | ⟨b, _ | ⟨c, l⟩⟩⟩ <;> simp only [Matches, and_false] at hm
      obtain ⟨rfl, ⟨d, rfl, hd⟩, -⟩ := hm
      exact ⟨.multi d, rfl, hd⟩
  · rintro ⟨_ | ⟨v4, v6, p⟩ | ⟨d, p⟩ | d, hr⟩
    · exact absurd hr id
    · obtain ⟨a, b, c, rfl, h1, h2, h3⟩ := hr
      exact Or.inl ⟨_, rfl, rfl, (opt_means_iff port_iff _).mpr ⟨_, h1⟩, (opt_means_iff (bytes_iff 4) _).mpr ⟨_, h2⟩,
        (opt_means_iff (bytes_iff 16) _).mpr ⟨_, h3⟩, trivial⟩
    · obtain ⟨a, rfl, h1, h2⟩ := hr
      exact Or.inr (Or.inl ⟨_, rfl, rfl, (opt_means_iff port_iff _).mpr ⟨_, h1⟩, ⟨_, rfl, h2⟩, trivial⟩)
    · obtain ⟨rfl, h2⟩ := hr
      exact Or.inr (Or.inr ⟨_, rfl, rfl, ⟨_, rfl, h2⟩, trivial⟩)

theorem port_null (n : Nat) : ¬ PortMeans .null n := fun h => by cases h.1
theorem bytes_null (n : Nat) (b : Bytes) : ¬ BytesMean n .null b := fun h => by cases h.1

theorem relay_unique (i : Item) (r r' : Relay) (h : RelayMeans i r) (h' : RelayMeans i r') : r = r' := by
  rcases r with _ | ⟨v4, v6, p⟩ | ⟨d, p⟩ | d <;> rcases r' with _ | ⟨v4', v6', p'⟩ | ⟨d', p'⟩ | d' <;>
    simp only [RelayMeans] at h h'
  · obtain ⟨a, b, c, rfl, h1, h2, h3⟩ := h
    obtain ⟨a', b', c', e, h1', h2', h3'⟩ := h'
    simp only [Item.array.injEq, List.cons.injEq, and_true, true_and] at e
    obtain ⟨rfl, rfl, rfl⟩ := e
    rw [opt_means_unique port_unique port_null _ _ _ h1 h1', opt_means_unique (bytes_unique 4) (bytes_null 4) _ _ _ h2 h2',
      opt_means_unique (bytes_unique 16) (bytes_null 16) _ _ _ h3 h3']
  · obtain ⟨a, b, c, rfl, -⟩ := h; obtain ⟨_, e, -⟩ := h'; simp at e
  · obtain ⟨a, b, c, rfl, -⟩ := h; simp at h'
  · obtain ⟨a, rfl, -⟩ := h; obtain ⟨_, _, _, e, -⟩ := h'; simp at e
  · obtain ⟨a, rfl, h1, -⟩ := h
    obtain ⟨a', e, h1', -⟩ := h'
    simp only [Item.array.injEq, List.cons.injEq, and_true, true_and, Item.tstr.injEq] at e
    obtain ⟨rfl, rfl⟩ := e
    rw [opt_means_unique port_unique port_null _ _ _ h1 h1']
  · obtain ⟨a, rfl, -⟩ := h; simp at h'
  · obtain ⟨_, _, _, e, -⟩ := h'; simp [h.1] at e
  · obtain ⟨_, e, -⟩ := h'; simp [h.1] at e
  · have := h.1.symm.trans h'.1; simp_all

theorem sortedSet_exists (l : List Bytes) : ∃ s, StrictSorted bytesLt s ∧ ∀ x, x ∈ s ↔ x ∈ l := by
  have s1 := foldl_setInsert bytesLt_order l [] List.Pairwise.nil
  exact ⟨_, s1.1, fun x => by rw [s1.2]; simp⟩

theorem owners_exist (os : List Item) (h : ∀ x ∈ os, BytesN 28 x) :
    ∃ s, StrictSorted bytesLt s ∧ (∀ x, x ∈ os ↔ ∃ b ∈ s, BytesMean 28 x b) ∧ ∀ b ∈ s, b.length = 28 := by
  obtain ⟨bs, hbs⟩ := forall₂_exists (P := BytesMean 28) os h
  obtain ⟨s, h1, h2⟩ := sortedSet_exists bs
  refine ⟨s, h1, fun x => ?_, ?_⟩
  · simp only [h2]
    clear h1 h2 h
    induction hbs with
    | nil => simp
    | @cons y b os bs hy _ ih =>
      rw [List.mem_cons, ih]
      constructor
      · rintro (rfl | ⟨c, hc, hx⟩)
        · exact ⟨b, by simp, hy⟩
        · exact ⟨c, by simp [hc], hx⟩
      · rintro ⟨c, hc, hx⟩
        rcases List.mem_cons.mp hc with rfl | hc
        · left; rw [hx.1, hy.1]
        · exact Or.inr ⟨c, hc, hx⟩
  · intro b hb
    rw [h2] at hb
    clear h1 h2 h
    induction hbs with
    | nil => cases hb
    | cons hy _ ih =>
      rcases List.mem_cons.mp hb with rfl | hb
      · exact hy.2
      · exact ih hb

theorem owners_unique {os : List Item} {s s' : List Bytes} (h1 : StrictSorted bytesLt s) (h1' : StrictSorted bytesLt s')
    (h2 : ∀ x, x ∈ os ↔ ∃ b ∈ s, BytesMean 28 x b) (h2' : ∀ x, x ∈ os ↔ ∃ b ∈ s', BytesMean 28 x b)
    (h3 : ∀ b ∈ s, b.length = 28) (h3' : ∀ b ∈ s', b.length = 28) : s = s' := by
  have key : ∀ s : List Bytes, (∀ x, x ∈ os ↔ ∃ b ∈ s, BytesMean 28 x b) → (∀ b ∈ s, b.length = 28) → ∀ b, b ∈ s ↔ Item.bstr b ∈ os := by
    intro s h2 h3 b
    rw [h2]
    constructor
    · intro hb; exact ⟨b, hb, rfl, h3 b hb⟩
    · rintro ⟨c, hc, e, -⟩; injection e with e; rw [e]; exact hc
  exact sorted_ext bytesLt_order _ _ h1 h1' fun b => by rw [key s h2 h3, key s' h2' h3']

theorem flat_id_inj {ps ps' : List (Item × Item)} (h : flat id id ps = flat id id ps') : ps = ps' := flat_inj _ _ h

theorem flat_uint_inj {ps ps' : List (Nat × Item)} (h : flat .uint id ps = flat .uint id ps') : ps = ps' := by
  induction ps generalizing ps' with
  | nil => cases ps' <;> simp_all [flat]
  | cons x a ih =>
    cases ps' with
    | nil => simp [flat] at h
    | cons y b =>
      simp only [flat, List.flatMap_cons, List.cons_append, List.nil_append, List.cons.injEq, Item.uint.injEq, id] at h
      rw [ih h.2.2]
      rw [show x = y from Prod.ext h.1 h.2.1]

theorem flat_wd_inj {ps ps' : List (Bytes × Nat)} (h : flat .bstr .uint ps = flat .bstr .uint ps') : ps = ps' := by
  induction ps generalizing ps' with
  | nil => cases ps' <;> simp_all [flat]
  | cons x a ih =>
    cases ps' with
    | nil => simp [flat] at h
    | cons y b =>
      simp only [flat, List.flatMap_cons, List.cons_append, List.nil_append, List.cons.injEq, Item.uint.injEq, Item.bstr.injEq] at h
      rw [ih h.2.2]
      rw [show x = y from Prod.ext h.1 h.2.1]

theorem mir_iff (i : Item) : MirC i ↔ ∃ m, MirMeans i m := by
  constructor
  · rintro ⟨l, rfl, hm⟩
    rcases l with _ | ⟨a, _ | ⟨b, _ | ⟨c, l⟩⟩⟩ <;> simp only [Matches, and_false] at hm
    obtain ⟨ha, ⟨ps, rfl, hn, hps⟩, -⟩ := hm
    obtain ⟨es, hes⟩ := forall₂_exists (P := fun (kv : Item × Item) (e : StakeCredential × Nat) =>
      CredMeans kv.1 e.1 ∧ kv.2 = .uint e.2) ps fun kv hkv => by
        obtain ⟨h1, n, hn⟩ := hps kv hkv
        obtain ⟨c, hc⟩ := (cred_means_iff _).mp h1
        exact ⟨(c, n), hc, hn⟩
    rcases ha with rfl | rfl
    · exact ⟨⟨.reserves, es⟩, ps, rfl, hn, hes⟩
    · exact ⟨⟨.treasury, es⟩, ps, rfl, hn, hes⟩
  · rintro ⟨⟨src, es⟩, ps, rfl, hn, hes⟩
    refine ⟨_, rfl, ?_, ⟨ps, rfl, hn, ?_⟩, trivial⟩
    · cases src
      · exact Or.inl rfl
      · exact Or.inr rfl
    · intro kv hkv
      obtain ⟨e, hc, hv⟩ := forall₂_left hes kv hkv
      exact ⟨(cred_means_iff _).mpr ⟨_, hc⟩, _, hv⟩

theorem mir_unique (i : Item) (m m' : MIR) (h : MirMeans i m) (h' : MirMeans i m') : m = m' := by
  obtain ⟨s, es⟩ := m; obtain ⟨s', es'⟩ := m'
  obtain ⟨ps, rfl, -, h1⟩ := h
  obtain ⟨ps', e, -, h1'⟩ := h'
  simp only [Item.array.injEq, List.cons.injEq, Item.uint.injEq, Item.map.injEq, and_true] at e
  obtain ⟨e1, e2⟩ := e
  have := flat_id_inj e2
  subst this
  have hes : es = es' := forall₂_unique (fun x y z hy hz => by
    refine Prod.ext (cred_means_unique _ _ _ hy.1 hz.1) ?_
    have := hy.2.symm.trans hz.2; injection this) h1 h1'
  cases s <;> cases s' <;> simp_all

theorem pool_iff (i : Item) : Group [Lit 3, BytesN 28, BytesN 32, UInt, UInt, UnitIntervalC, BytesAny,
    ArrayOf (BytesN 28), ArrayOf RelayC, OrNull PoolMetadataC] i ↔ ∃ p, PoolMeans i p := by
  constructor
  · rintro ⟨l, rfl, hm⟩
    have hlen := group_length hm
    match l, hlen, hm with
    | [i0, i1, i2, i3, i4, i5, i6, i7, i8, i9], _, hm =>
      simp only [Matches] at hm
      obtain ⟨rfl, ⟨b1, rfl, l1⟩, ⟨b2, rfl, l2⟩, ⟨n3, rfl⟩, ⟨n4, rfl⟩, ⟨a, b, rfl⟩, ⟨b6, rfl⟩, ⟨l7, rfl, ho⟩, ⟨l8, rfl, hr⟩, hmd, -⟩ := hm
      obtain ⟨s, s1, s2, s3⟩ := owners_exist l7 ho
      obtain ⟨rs, hrs⟩ := forall₂_exists (P := RelayMeans) l8 fun x hx => (relay_iff x).mp (hr x hx)
      obtain ⟨md, hmd⟩ := (opt_means_iff meta_iff _).mp hmd
      exact ⟨⟨b1, b2, n3, n4, ⟨a, b⟩, b6, s, rs, md⟩, _, _, _, rfl, l1, l2, s1, s2, s3, hrs, hmd⟩
  · rintro ⟨p, os, rs, md, rfl, l1, l2, s1, s2, s3, hrs, hmd⟩
    refine ⟨_, rfl, rfl, ⟨_, rfl, l1⟩, ⟨_, rfl, l2⟩, ⟨_, rfl⟩, ⟨_, rfl⟩, ⟨_, _, rfl⟩, ⟨_, rfl⟩, ⟨_, rfl, ?_⟩, ⟨_, rfl, ?_⟩,
      (opt_means_iff meta_iff _).mpr ⟨_, hmd⟩, trivial⟩
    · intro x hx; obtain ⟨b, _, hb⟩ := (s2 x).mp hx; exact ⟨b, hb⟩
    · intro x hx; exact (relay_iff x).mpr (forall₂_left hrs x hx)

theorem meta_null (m : PoolMetadata) : ¬ MetaMeans .null m := fun h => by cases h.1

theorem pool_unique (i : Item) (p p' : PoolParams) (h : PoolMeans i p) (h' : PoolMeans i p') : p = p' := by
  obtain ⟨os, rs, md, rfl, -, -, s1, s2, s3, hr, hm⟩ := h
  obtain ⟨os', rs', md', e, -, -, s1', s2', s3', hr', hm'⟩ := h'
  simp only [Item.array.injEq, List.cons.injEq, Item.uint.injEq, Item.bstr.injEq, Item.tag.injEq, and_true, true_and] at e
  obtain ⟨e1, e2, e3, e4, ⟨e5, e6⟩, e7, rfl, rfl, rfl⟩ := e
  have o := owners_unique s1 s1' s2 s2' s3 s3'
  have r := forall₂_unique relay_unique hr hr'
  have m := opt_means_unique meta_unique meta_null _ _ _ hm hm'
  obtain ⟨_, _, _, _, ⟨_, _⟩, _, _, _, _⟩ := p
  obtain ⟨_, _, _, _, ⟨_, _⟩, _, _, _, _⟩ := p'
  simp_all

theorem cert_iff (i : Item) : CertificateC i ↔ ∃ c, CertMeans i c := by
  constructor
  · rintro (h | h | h | h | h | h | h)
    · obtain ⟨l, rfl, hm⟩ := h
      rcases l with _ | ⟨a, _ | ⟨b, _ | ⟨c, l⟩⟩⟩ <;> simp only [Matches, and_false] at hm
      obtain ⟨rfl, hc, -⟩ := hm
      obtain ⟨c, hc⟩ := (cred_means_iff _).mp hc
      exact ⟨.stakeReg c, _, rfl, hc⟩
    · obtain ⟨l, rfl, hm⟩ := h
      rcases l with _ | ⟨a, _ | ⟨b, _ | ⟨c, l⟩⟩⟩ <;> simp only [Matches, and_false] at hm
      obtain ⟨rfl, hc, -⟩ := hm
      obtain ⟨c, hc⟩ := (cred_means_iff _).mp hc
      exact ⟨.stakeDereg c, _, rfl, hc⟩
    · obtain ⟨l, rfl, hm⟩ := h
      rcases l with _ | ⟨a, _ | ⟨b, _ | ⟨c, _ | ⟨d, l⟩⟩⟩⟩ <;> simp only [Matches, and_false] at hm
      obtain ⟨rfl, hc, ⟨h, rfl, hh⟩, -⟩ := hm
      obtain ⟨c, hc⟩ := (cred_means_iff _).mp hc
      exact ⟨.delegation c h, _, rfl, hc, hh⟩
    · obtain ⟨p, hp⟩ := (pool_iff i).mp h
      exact ⟨.poolReg p, hp⟩
    · obtain ⟨l, rfl, hm⟩ := h
      rcases l with _ | ⟨a, _ | ⟨b, _ | ⟨c, _ | ⟨d, l⟩⟩⟩⟩ <;> simp only [Matches, and_false] at hm
      obtain ⟨rfl, ⟨h, rfl, hh⟩, ⟨n, rfl⟩, -⟩ := hm
      exact ⟨.poolRetire h n, rfl, hh⟩
    · obtain ⟨l, rfl, hm⟩ := h
      rcases l with _ | ⟨a, _ | ⟨b, _ | ⟨c, _ | ⟨d, _ | ⟨e, l⟩⟩⟩⟩⟩ <;> simp only [Matches, and_false] at hm
      obtain ⟨rfl, ⟨x, rfl, hx⟩, ⟨y, rfl, hy⟩, ⟨z, rfl, hz⟩, -⟩ := hm
      exact ⟨.genesisDeleg x y z, rfl, hx, hy, hz⟩
    · obtain ⟨l, rfl, hm⟩ := h
      rcases l with _ | ⟨a, _ | ⟨b, _ | ⟨c, l⟩⟩⟩ <;> simp only [Matches, and_false] at hm
      obtain ⟨rfl, hc, -⟩ := hm
      obtain ⟨m, hm⟩ := (mir_iff _).mp hc
      exact ⟨.mir m, _, rfl, hm⟩
  · rintro ⟨c, h⟩
    cases c with
    | empty => exact absurd h id
    | stakeReg c => obtain ⟨x, rfl, hx⟩ := h; exact Or.inl ⟨_, rfl, rfl, (cred_means_iff _).mpr ⟨_, hx⟩, trivial⟩
    | stakeDereg c => obtain ⟨x, rfl, hx⟩ := h; exact Or.inr (Or.inl ⟨_, rfl, rfl, (cred_means_iff _).mpr ⟨_, hx⟩, trivial⟩)
    | delegation c p =>
      obtain ⟨x, rfl, hx, hp⟩ := h
      exact Or.inr (Or.inr (Or.inl ⟨_, rfl, rfl, (cred_means_iff _).mpr ⟨_, hx⟩, ⟨_, rfl, hp⟩, trivial⟩))
    | poolReg p => exact Or.inr (Or.inr (Or.inr (Or.inl ((pool_iff i).mpr ⟨p, h⟩))))
    | poolRetire p e =>
      obtain ⟨rfl, hp⟩ := h
      exact Or.inr (Or.inr (Or.inr (Or.inr (Or.inl ⟨_, rfl, rfl, ⟨_, rfl, hp⟩, ⟨_, rfl⟩, trivial⟩))))
    | genesisDeleg x y z =>
      obtain ⟨rfl, h1, h2, h3⟩ := h
      exact Or.inr (Or.inr (Or.inr (Or.inr (Or.inr (Or.inl
        ⟨_, rfl, rfl, ⟨_, rfl, h1⟩, ⟨_, rfl, h2⟩, ⟨_, rfl, h3⟩, trivial⟩)))))
    | mir m =>
      obtain ⟨x, rfl, hx⟩ := h
      exact Or.inr (Or.inr (Or.inr (Or.inr (Or.inr (Or.inr ⟨_, rfl, rfl, (mir_iff _).mpr ⟨_, hx⟩, trivial⟩)))))

/-- The type number with which the array of a certificate starts. -/
theorem cert_head {i : Item} {c : Certificate} (h : CertMeans i c) : ∃ l, i = .array (.uint (match c with
    | .empty => 7 | .stakeReg _ => 0 | .stakeDereg _ => 1 | .delegation _ _ => 2 | .poolReg _ => 3 | .poolRetire _ _ => 4
    | .genesisDeleg _ _ _ => 5 | .mir _ => 6) :: l) := by
  cases c with
  | empty => exact absurd h id
  | stakeReg c => obtain ⟨x, rfl, -⟩ := h; exact ⟨_, rfl⟩
  | stakeDereg c => obtain ⟨x, rfl, -⟩ := h; exact ⟨_, rfl⟩
  | delegation c p => obtain ⟨x, rfl, -⟩ := h; exact ⟨_, rfl⟩
  | poolReg p => obtain ⟨os, rs, md, rfl, -⟩ := h; exact ⟨_, rfl⟩
  | poolRetire p e => obtain ⟨rfl, -⟩ := h; exact ⟨_, rfl⟩
  | genesisDeleg x y z => obtain ⟨rfl, -⟩ := h; exact ⟨_, rfl⟩
  | mir m => obtain ⟨x, rfl, -⟩ := h; exact ⟨_, rfl⟩

theorem cert_unique (i : Item) (c c' : Certificate) (h : CertMeans i c) (h' : CertMeans i c') : c = c' := by
  obtain ⟨l, e⟩ := cert_head h
  obtain ⟨l', e'⟩ := cert_head h'
  have ee := e.symm.trans e'
  simp only [Item.array.injEq, List.cons.injEq, Item.uint.injEq] at ee
  have e0 := ee.1
  clear e e' ee l l'
  cases c <;> cases c' <;> simp only [reduceCtorEq] at e0 <;> try (exact absurd e0 (by decide))
  · exact absurd h id
  · obtain ⟨x, rfl, hx⟩ := h; obtain ⟨y, e, hy⟩ := h'
    simp only [Item.array.injEq, List.cons.injEq, and_true, true_and] at e; subst e
    rw [cred_means_unique _ _ _ hx hy]
  · obtain ⟨x, rfl, hx⟩ := h; obtain ⟨y, e, hy⟩ := h'
    simp only [Item.array.injEq, List.cons.injEq, and_true, true_and] at e; subst e
    rw [cred_means_unique _ _ _ hx hy]
  · obtain ⟨x, rfl, hx, -⟩ := h; obtain ⟨y, e, hy, -⟩ := h'
    simp only [Item.array.injEq, List.cons.injEq, and_true, true_and, Item.bstr.injEq] at e
    obtain ⟨rfl, rfl⟩ := e
    rw [cred_means_unique _ _ _ hx hy]
  · rw [pool_unique i _ _ h h']
  · obtain ⟨rfl, -⟩ := h; obtain ⟨e, -⟩ := h'
    simp_all
  · obtain ⟨rfl, -⟩ := h; obtain ⟨e, -⟩ := h'
    simp_all
  · obtain ⟨x, rfl, hx⟩ := h; obtain ⟨y, e, hy⟩ := h'
    simp only [Item.array.injEq, List.cons.injEq, and_true, true_and] at e; subst e
    rw [mir_unique _ _ _ hx hy]

end Cardano.Ledger
