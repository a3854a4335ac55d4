import Verif.Props.LedgerTx
import Verif.Lemmas.CborSized

/-! # C70: whatever the library decodes is well formed and survives re-serialization

Inputs are byte strings of less than 2^63 bytes (no memory holds more). -/

namespace Cardano.Ledger

open Cardano.Cbor Cardano.Spec.Ledger

theorem fits_le {α} {l : List α} {L : Nat} (hL : L < 2 ^ 63) (h : l.length ≤ L) : Fits l := by
  unfold Fits; omega

theorem reqLen_inv {e : Exc} {n : Nat} {b c : Bytes} (h : reqLen e n b = .ok c) : c = b ∧ c.length = n := by
  unfold reqLen at h
  split at h
  · simp only [Out.ok.injEq] at h; subst h; exact ⟨rfl, by assumption⟩
  · simp at h

theorem deref_inv {α} {x : Option α} {a : α} (h : deref x = .ok a) : x = some a := by
  cases x with
  | none => simp [deref] at h
  | some y => simpa [deref] using h

theorem mapOut_inv {α β} (f : α → Out β) (P : β → Prop) (l : List α) (r : List β)
    (h : mapOut f l = .ok r) (hp : ∀ a ∈ l, ∀ b, f a = .ok b → P b) :
    r.length = l.length ∧ ∀ b ∈ r, P b := by
  induction l generalizing r with
  | nil => simp only [mapOut, Out.ok.injEq] at h; subst h; simp
  | cons a l ih =>
    simp only [mapOut, Out.bind_eq_ok, Out.ok.injEq] at h
    obtain ⟨b, hb, bs, hbs, rfl⟩ := h
    have := ih bs hbs (fun a ha => hp a (by simp [ha]))
    refine ⟨by simp [this.1], ?_⟩
    intro c hc
    rcases List.mem_cons.mp hc with rfl | hc
    · exact hp a (by simp) _ hb
    · exact this.2 c hc

theorem deserializeArray_inv {α} {f : List Item → Out α} {b : Bytes} {a : α}
    (h : deserializeArray f b = .ok a) :
    ∃ l, l.length ≤ b.length ∧ (∀ i ∈ l, Sized b.length i) ∧ f l = .ok a := by
  unfold deserializeArray at h
  split at h
  · simp at h
  · next i hi =>
    split at h
    · simp at h
    · next l hl =>
      have := (parse_sized hi).asArray hl
      exact ⟨l, this.1, this.2, h⟩

theorem deserializeMap_inv {α} {f : List Item → Out α} {b : Bytes} {a : α}
    (h : deserializeMap f b = .ok a) :
    ∃ l, l.length ≤ b.length ∧ (∀ i ∈ l, Sized b.length i) ∧ f l = .ok a := by
  unfold deserializeMap at h
  split at h
  · simp at h
  · next i hi =>
    split at h
    · simp at h
    · next l hl =>
      have := (parse_sized hi).asMap hl
      exact ⟨l, this.1, this.2, h⟩

section Elements
variable {L : Nat} (hL : L < 2 ^ 63)
include hL

omit hL in
theorem rat_dec {n : Nat} {i : Item} {r : Rational} (hi : Sized L i) (h : Rational.deser n i = .ok r) :
    RatRep r ∧ r.den ≠ 0 := by
  unfold Rational.deser at h
  split at h
  · simp at h
  · split at h
    · simp at h
    · next a b hab =>
      have hs := (hi.asArray hab).2
      split at h
      · next num den hn hd =>
        split at h
        · simp at h
        · next h0 =>
          simp only [Out.ok.injEq] at h; subst h
          exact ⟨⟨(hs a (by simp)).asUint hn, (hs b (by simp)).asUint hd⟩, h0⟩
      · simp at h
    · simp at h

theorem meta_dec {l : List Item} {m : PoolMetadata} (hl : ∀ i ∈ l, Sized L i)
    (h : PoolMetadata.deser l = .ok m) : MetaRep m := by
  unfold PoolMetadata.deser at h
  split at h
  · next a b =>
    split at h
    · next u hh hu hb =>
      simp only [Out.bind_eq_ok, Out.ok.injEq] at h
      obtain ⟨c, hc, rfl⟩ := h
      exact ⟨fits_le hL ((hl a (by simp)).asTstr hu), (reqLen_inv hc).2⟩
    · simp at h
  · simp at h

omit hL in
theorem portOf_lt (i : Item) : ∀ p ∈ portOf i, p < 2 ^ 16 := by
  intro p hp
  simp only [portOf, Option.mem_def, Option.map_eq_some_iff] at hp
  obtain ⟨a, _, rfl⟩ := hp
  exact Nat.mod_lt _ (by decide)

theorem relay_dec {l : List Item} {old r : Relay} (hl : ∀ i ∈ l, Sized L i) (ho : RelayRep old)
    (h : Relay.deser old l = .ok r) : RelayRep r := by
  unfold Relay.deser at h
  split at h
  · next t a rest =>
    split at h
    · simp at h
    · split at h
      · next b c =>
        simp only [Out.ok.injEq] at h; subst h
        have := portOf_lt a
        unfold ipOf
        split
        · split
          · next h4 => exact ⟨by simpa using h4, by simp, this⟩
          · split
            · next h16 => exact ⟨by simp, by simpa using h16, this⟩
            · exact ⟨by simp, by simp, this⟩
        · exact ⟨by simp, by simp, this⟩
      · simp at h
    · split at h
      · next b =>
        split at h
        · next d hd =>
          simp only [Out.ok.injEq] at h; subst h
          exact ⟨fits_le hL ((hl b (by simp)).asTstr hd), portOf_lt a⟩
        · simp at h
      · simp at h
    · split at h
      · split at h
        · next d hd =>
          simp only [Out.ok.injEq] at h; subst h
          exact fits_le hL ((hl a (by simp)).asTstr hd)
        · simp at h
      · simp at h
    · simp only [Out.ok.injEq] at h; subst h; exact ho
  · simp at h

omit hL in
theorem cred_dec {l : List Item} {c : StakeCredential} (h : StakeCredential.deser l = .ok c) : CredRep c := by
  unfold StakeCredential.deser at h
  split at h
  · split at h
    · simp only [Out.bind_eq_ok, Out.ok.injEq] at h
      obtain ⟨ty, _, c', hc, rfl⟩ := h
      exact (reqLen_inv hc).2
    · simp at h
  · simp at h

omit hL in
theorem mirLoop_dec : ∀ {l : List Item} {r : List (StakeCredential × Nat)}, (∀ i ∈ l, Sized L i) →
    mirLoop l = .ok r → r.length ≤ l.length ∧ ∀ e ∈ r, CredRep e.1 ∧ U64 e.2
  | k :: v :: rest, r, hl, h => by
    simp only [mirLoop, Out.bind_eq_ok, Out.ok.injEq] at h
    obtain ⟨arr, _, c, hc, n, hn, r', hr, rfl⟩ := h
    have ih := mirLoop_dec (fun i hi => hl i (by simp [hi])) hr
    refine ⟨by simp only [List.length_cons]; omega, ?_⟩
    intro e he
    rcases List.mem_cons.mp he with rfl | he
    · exact ⟨cred_dec hc, (hl v (by simp)).asUint (deref_inv hn)⟩
    · exact ih.2 e he
  | [], r, _, h => by simp only [mirLoop, Out.ok.injEq] at h; subst h; simp
  | [_], r, _, h => by simp only [mirLoop, Out.ok.injEq] at h; subst h; simp

theorem mir_dec {l : List Item} {m : MIR} (hl : ∀ i ∈ l, Sized L i) (h : MIR.deser [] l = .ok m) :
    MirRep m := by
  unfold MIR.deser at h
  split at h
  · next a b =>
    split at h
    · next s kvs hs hk =>
      simp only [Out.bind_eq_ok, Out.ok.injEq, List.nil_append] at h
      obtain ⟨src, _, es, he, rfl⟩ := h
      have hm := (hl b (by simp)).asMap hk
      have := mirLoop_dec hm.2 he
      exact ⟨fits_le hL (by simp only; omega), this.2⟩
    · simp at h
  · simp at h

omit hL in
theorem foldl_insert_length {α} (lt : α → α → Bool) (l acc : List α) :
    (l.foldl (fun s o => setInsert lt o s) acc).length ≤ l.length + acc.length := by
  induction l generalizing acc with
  | nil => simp
  | cons x l ih =>
    have h1 : (setInsert lt x acc).length ≤ acc.length + 1 := by
      induction acc with
      | nil => simp [setInsert]
      | cons y ys ihy =>
        unfold setInsert
        split
        · simp
        · split
          · simp only [List.length_cons]; omega
          · simp
    have := ih (setInsert lt x acc)
    simp only [List.foldl_cons, List.length_cons]; omega

theorem owners_dec {i : Option Item} {os : List Bytes} (hi : ∀ j ∈ i, Sized L j) (h : ownersOf i = .ok os) :
    Fits os ∧ StrictSorted bytesLt os ∧ ∀ o ∈ os, o.length = 28 := by
  unfold ownersOf at h
  split at h
  · simp only [Out.ok.injEq] at h; subst h
    exact ⟨by simp [Fits], List.Pairwise.nil, by simp⟩
  · next l hl =>
    simp only [Out.bind_eq_ok, Out.ok.injEq] at h
    obtain ⟨os', ho, rfl⟩ := h
    cases i with
    | none => simp at hl
    | some j =>
      have hs := (hi j rfl).asArray hl
      have hm := mapOut_inv ownerOf (fun o => o.length = 28) l os' ho (by
        intro a _ b hb
        simp only [ownerOf, Out.bind_eq_ok] at hb
        obtain ⟨c, _, hc⟩ := hb
        exact (reqLen_inv hc).2)
      have hf := foldl_setInsert bytesLt_order os' [] List.Pairwise.nil
      refine ⟨fits_le hL (L := L) ?_, hf.1, ?_⟩
      · have := foldl_insert_length bytesLt os' []
        simp only [List.length_nil] at this
        have := hs.1; omega
      · intro o ho
        rcases (hf.2 o).mp ho with h | h
        · simp at h
        · exact hm.2 o h

theorem poolReg_dec {l : List Item} {c : Certificate} (hl : ∀ i ∈ l, Sized L i)
    (h : poolRegDeser l = .ok c) : CertRep c ∧ CertPreserved c := by
  unfold poolRegDeser at h
  split at h
  · next i0 i1 i2 i3 i4 i5 i6 rest =>
    split at h
    · next op vrf pledge cost _ rew h1 h2 h3 h4 h5 h6 =>
      simp only [Out.bind_eq_ok, Out.ok.injEq] at h
      obtain ⟨op', ho, vrf', hv, m, hm, os, hos, rfl⟩ := h
      have hmr : RatRep m ∧ m.den ≠ 0 := by
        have hz := hl i5 (by simp)
        unfold marginOf at hm
        split at hm
        · cases hz with | tag _ hz' => exact rat_dec hz' hm
        · simp at hm
      refine ⟨⟨(reqLen_inv ho).2, (reqLen_inv hv).2, (hl i3 (by simp)).asUint h3,
        (hl i4 (by simp)).asUint h4, hmr.1, fits_le hL ((hl i6 (by simp)).asBstr h6),
        owners_dec hL ?_ hos, ⟨by simp [Fits], by simp⟩, by simp⟩, rfl, rfl, hmr.2⟩
      intro j hj
      cases rest with
      | nil => simp at hj
      | cons x xs => simp at hj; subst hj; exact hl _ (by simp)
    · simp at h
  · simp at h

theorem cert_dec {l : List Item} {old c : Certificate} (hl : ∀ i ∈ l, Sized L i)
    (ho : CertRep old) (h : Certificate.deser old l = .ok c) :
    CertRep c ∧ (c = old ∨ CertPreserved c) := by
  unfold Certificate.deser at h
  split at h
  · next t x y =>
    have credCase : ∀ mk : StakeCredential → Certificate,
        credCert mk (t :: x :: y) = .ok c → ∃ cr, CredRep cr ∧ c = mk cr := by
      intro mk h
      unfold credCert at h
      split at h
      · split at h
        · simp at h
        · simp only [Out.bind_eq_ok, Out.ok.injEq] at h
          obtain ⟨cr, hc, rfl⟩ := h
          exact ⟨cr, cred_dec hc, rfl⟩
      · simp at h
    split at h
    · simp at h
    · obtain ⟨cr, hc, rfl⟩ := credCase _ h; exact ⟨hc, Or.inr trivial⟩
    · obtain ⟨cr, hc, rfl⟩ := credCase _ h; exact ⟨hc, Or.inr trivial⟩
    · unfold delegDeser at h
      split at h
      · split at h
        · simp only [Out.bind_eq_ok, Out.ok.injEq] at h
          obtain ⟨cr, hc, hh, hr, rfl⟩ := h
          exact ⟨⟨cred_dec hc, (reqLen_inv hr).2⟩, Or.inr trivial⟩
        · simp at h
      · simp at h
    · have := poolReg_dec hL hl h; exact ⟨this.1, Or.inr this.2⟩
    · unfold retireDeser at h
      split at h
      · next t' a b heq =>
        split at h
        · next hh e h1 h2 =>
          simp only [Out.bind_eq_ok, Out.ok.injEq] at h
          obtain ⟨h', hr, rfl⟩ := h
          have hb : b ∈ t :: x :: y := by rw [heq]; simp
          exact ⟨⟨(reqLen_inv hr).2, (hl b hb).asUint h2⟩, Or.inr trivial⟩
        · simp at h
      · simp at h
    · next ht =>
      exfalso
      simp only [genesisDeser, Out.bind_eq_ok] at h
      obtain ⟨i0, h0, g, hg, _⟩ := h
      simp only [Cbor.get, List.getElem?_cons_zero, deref, Out.ok.injEq] at h0
      subst h0
      have := deref_inv hg
      unfold asUint at ht; unfold asBstr at this
      split at ht
      · next hu => rw [hu] at this; simp at this
      · simp at ht
    · simp only [mirDeser, Out.bind_eq_ok, Out.ok.injEq] at h
      obtain ⟨i1, h1, arr, ha, m, hm, rfl⟩ := h
      simp only [Cbor.get, List.getElem?_cons_succ, List.getElem?_cons_zero, deref, Out.ok.injEq] at h1
      subst h1
      have hs := (hl x (by simp)).asArray (deref_inv ha)
      exact ⟨mir_dec hL hs.2 hm, Or.inr trivial⟩
    · simp only [Out.ok.injEq] at h; subst h; exact ⟨ho, Or.inl rfl⟩
  · simp at h

theorem out_dec {l : List Item} {o : TxOut} (hl : ∀ i ∈ l, Sized L i) (h : TxOut.deser l = .ok o) :
    OutRep o := by
  unfold TxOut.deser at h
  split at h
  · next a b =>
    split at h
    · next ad n h1 h2 =>
      simp only [Out.ok.injEq] at h; subst h
      exact ⟨fits_le hL ((hl a (by simp)).asBstr h1), (hl b (by simp)).asUint h2⟩
    · simp at h
  · simp at h

omit hL in
theorem in_dec {l : List Item} {i : TxIn} (hl : ∀ i ∈ l, Sized L i) (h : TxIn.deser l = .ok i) :
    InRep i := by
  unfold TxIn.deser at h
  split at h
  · next a b =>
    split at h
    · next ad n h1 h2 =>
      simp only [Out.bind_eq_ok, Out.ok.injEq] at h
      obtain ⟨hh, hr, rfl⟩ := h
      exact ⟨(reqLen_inv hr).2, (hl b (by simp)).asUint h2⟩
    · simp at h
  · simp at h

omit hL in
theorem arrayAt_sized {k : Nat} {m : List Item} (hm : ∀ i ∈ m, Sized L i) :
    (arrayAt k m).length ≤ L ∧ ∀ i ∈ arrayAt k m, Sized L i := by
  unfold arrayAt
  cases hk : lookup k m with
  | none => simp
  | some v =>
    have hv := hm v (lookup_mem hk)
    cases ha : asArray v with
    | none => simp [ha]
    | some l => simpa [ha] using hv.asArray ha

omit hL in
theorem uintAt_lt {k : Nat} {m : List Item} (hm : ∀ i ∈ m, Sized L i) : U64 (uintAt k m) := by
  unfold uintAt U64
  cases hk : lookup k m with
  | none => simp
  | some v =>
    have hv := hm v (lookup_mem hk)
    cases ha : asUint v with
    | none => simp [ha]
    | some n => simpa [ha] using hv.asUint ha

omit hL in
theorem hashAt_dec {m : List Item} {h : Option Bytes} (e : hashAt m = .ok h) : ∀ x ∈ h, x.length = 32 := by
  unfold hashAt at e
  split at e
  · simp only [Out.ok.injEq] at e; subst e; simp
  · simp only [Out.bind_eq_ok, Out.ok.injEq] at e
    obtain ⟨y, hy, rfl⟩ := e
    simpa using (reqLen_inv hy).2

omit hL in
theorem mapAssign_length {κ α} (lt : κ → κ → Bool) (k : κ) (v : α) (l : List (κ × α)) :
    (mapAssign lt k v l).length ≤ l.length + 1 := by
  induction l with
  | nil => simp [mapAssign]
  | cons e rest ih =>
    obtain ⟨k', v'⟩ := e
    unfold mapAssign
    split
    · simp
    · split
      · simp only [List.length_cons]; omega
      · simp

theorem withdrawals_dec : ∀ {l : List Item} {acc r : List (Bytes × Nat)}, (∀ i ∈ l, Sized L i) →
    StrictSorted bytesLt (acc.map (·.1)) → (∀ w ∈ acc, Fits w.1 ∧ U64 w.2) →
    withdrawalLoop l acc = .ok r →
    r.length ≤ l.length + acc.length ∧ StrictSorted bytesLt (r.map (·.1)) ∧ ∀ w ∈ r, Fits w.1 ∧ U64 w.2
  | k :: v :: rest, acc, r, hl, hs, ha, h => by
    simp only [withdrawalLoop, Out.bind_eq_ok] at h
    obtain ⟨a, hk, n, hn, h⟩ := h
    have h1 : Fits a := fits_le hL ((hl k (by simp)).asBstr (deref_inv hk))
    have h2 : U64 n := (hl v (by simp)).asUint (deref_inv hn)
    have := withdrawals_dec (fun i hi => hl i (by simp [hi])) (mapAssign_sorted bytesLt_order a n acc hs) (by
      intro w hw
      rcases (mem_mapAssign bytesLt_order a n acc hs w).mp hw with rfl | ⟨hw, _⟩
      · exact ⟨h1, h2⟩
      · exact ha w hw) h
    refine ⟨?_, this.2⟩
    have hm := mapAssign_length bytesLt a n acc
    simp only [List.length_cons]; omega
  | [], acc, r, _, hs, ha, h => by
    simp only [withdrawalLoop, Out.ok.injEq] at h; subst h; exact ⟨by simp, hs, ha⟩
  | [_], acc, r, _, hs, ha, h => by
    simp only [withdrawalLoop, Out.ok.injEq] at h; subst h; exact ⟨by simp, hs, ha⟩

theorem body_dec {m : List Item} {b : TxBody} (hm : ∀ i ∈ m, Sized L i) (h : TxBody.deser m = .ok b) :
    BodyRep b ∧ b.update = false ∧ ∀ c ∈ b.certificates, c = .empty ∨ CertPreserved c := by
  simp only [TxBody.deser, Out.bind_eq_ok, Out.ok.injEq] at h
  obtain ⟨ins, hi, outs, ho, certs, hc, ws, hw, hh, hhh, rfl⟩ := h
  have a0 := arrayAt_sized (k := 0) hm
  have a1 := arrayAt_sized (k := 1) hm
  have a4 := arrayAt_sized (k := 4) hm
  have hins := mapOut_inv inputOf InRep _ _ hi (by
    intro a ha b hb
    simp only [inputOf, Out.bind_eq_ok] at hb
    obtain ⟨l, hl, hd⟩ := hb
    exact in_dec ((a0.2 a ha).asArray (deref_inv hl)).2 hd)
  have houts := mapOut_inv outputOf OutRep _ _ ho (by
    intro a ha b hb
    simp only [outputOf, Out.bind_eq_ok] at hb
    obtain ⟨l, hl, hd⟩ := hb
    exact out_dec hL ((a1.2 a ha).asArray (deref_inv hl)).2 hd)
  have hcerts := mapOut_inv certOf (fun c => CertRep c ∧ (c = .empty ∨ CertPreserved c)) _ _ hc (by
    intro a ha b hb
    simp only [certOf, Out.bind_eq_ok] at hb
    obtain ⟨l, hl, hd⟩ := hb
    exact cert_dec hL ((a4.2 a ha).asArray (deref_inv hl)).2 (old := .empty) trivial hd)
  have hf := foldl_setInsert txInLt_order ins [] List.Pairwise.nil
  have hwl : (((lookup 5 m).bind asMap).getD []).length ≤ L ∧ ∀ i ∈ ((lookup 5 m).bind asMap).getD [], Sized L i := by
    cases hk : lookup 5 m with
    | none => simp
    | some v =>
      have hv := hm v (lookup_mem hk)
      cases ha : asMap v with
      | none => simp [ha]
      | some l => simpa [ha] using hv.asMap ha
  have hws := withdrawals_dec hL hwl.2 (by simp [StrictSorted]) (by simp) hw
  refine ⟨⟨⟨?_, hf.1, ?_⟩, ⟨fits_le hL (L := L) (by simp only; omega), houts.2⟩, uintAt_lt hm, uintAt_lt hm,
    ⟨fits_le hL (L := L) (by simp only; omega), fun c hc => (hcerts.2 c hc).1⟩,
    ⟨fits_le hL (L := L) ?_, hws.2⟩, hashAt_dec hhh⟩, rfl, fun c hc => (hcerts.2 c hc).2⟩
  · have := foldl_insert_length TxIn.lt ins []
    simp only [List.length_nil] at this
    exact fits_le hL (L := L) (by simp only; omega)
  · intro i hi
    rcases (hf.2 i).mp hi with h | h
    · simp at h
    · exact hins.2 i h
  · simp only [List.length_nil] at hws
    simp only; omega

theorem wits_dec {m : List Item} {w : WitnessSet} (hm : ∀ i ∈ m, Sized L i)
    (h : WitnessSet.deser m = .ok w) : WitsRep w ∧ WitsPreserved w := by
  simp only [WitnessSet.deser, Out.bind_eq_ok, Out.ok.injEq] at h
  obtain ⟨ws, hw, rfl⟩ := h
  have a0 := arrayAt_sized (k := 0) hm
  have := mapOut_inv vkeyOf VkeyRep _ _ hw (by
    intro a _ b hb
    simp only [vkeyOf, Out.bind_eq_ok, Out.ok.injEq] at hb
    obtain ⟨_, _, _, _, k, hk, _, _, _, _, s, hs, rfl⟩ := hb
    unfold byteArray at hk hs
    split at hk
    · split at hs
      · simp only [Out.ok.injEq] at hk hs
        subst hk hs
        constructor
        · simp only [List.length_take]; omega
        · simp only [List.length_take]; omega
      · simp at hs
    · simp at hk)
  refine ⟨⟨⟨fits_le hL (L := L) ?_, this.2⟩, by simp [Fits], by simp⟩, rfl, rfl⟩
  have hle := List.length_filterMap_le asArray (arrayAt 0 m)
  simp only; omega

end Elements

/-! ## Decoded objects are within their types -/

/-- **C70** (parts of a transaction): whatever bytes are given, a successfully decoded margin,
pool metadata record, relay, stake credential, reward transfer, certificate, output or input
holds only values its type allows: hashes of the right length, 64-bit numbers, 16-bit ports,
4- or 16-byte addresses, sorted owner sets. -/
theorem C70_decoded_parts (b : Bytes) (hb : b.length < 2 ^ 63) :
    (∀ r, Rational.deserialize b = .ok r → RatRep r ∧ r.den ≠ 0) ∧
    (∀ m, PoolMetadata.deserialize b = .ok m → MetaRep m) ∧
    (∀ r, Relay.deserialize .empty b = .ok r → RelayRep r) ∧
    (∀ c, StakeCredential.deserialize b = .ok c → CredRep c) ∧
    (∀ m, MIR.deserialize [] b = .ok m → MirRep m) ∧
    (∀ c, Certificate.deserialize .empty b = .ok c → CertRep c) ∧
    (∀ o, TxOut.deserialize b = .ok o → OutRep o) ∧
    (∀ i, TxIn.deserialize b = .ok i → InRep i) := by
  refine ⟨?_, ?_, ?_, ?_, ?_, ?_, ?_, ?_⟩
  · intro r h
    unfold Rational.deserialize deserializeTag at h
    split at h
    · simp at h
    · next n i hi =>
      have := parse_sized hi
      cases this with | tag _ hs => exact rat_dec hs h
    · simp at h
  · intro m h
    obtain ⟨l, _, hl, h⟩ := deserializeArray_inv h
    exact meta_dec hb hl h
  · intro m h
    obtain ⟨l, _, hl, h⟩ := deserializeArray_inv h
    exact relay_dec hb hl (old := .empty) trivial h
  · intro m h
    obtain ⟨l, _, hl, h⟩ := deserializeArray_inv h
    exact cred_dec h
  · intro m h
    obtain ⟨l, _, hl, h⟩ := deserializeArray_inv h
    exact mir_dec hb hl h
  · intro m h
    obtain ⟨l, _, hl, h⟩ := deserializeArray_inv h
    exact (cert_dec hb hl (old := .empty) trivial h).1
  · intro m h
    obtain ⟨l, _, hl, h⟩ := deserializeArray_inv h
    exact out_dec hb hl h
  · intro m h
    obtain ⟨l, _, hl, h⟩ := deserializeArray_inv h
    exact in_dec hl h

/-- **C70** (bodies): a decoded body holds only values its type allows (32-byte metadata hash,
sorted inputs and withdrawals, ...) and has no protocol update. -/
theorem C70_decoded_body (b : Bytes) (hb : b.length < 2 ^ 63) (t : TxBody)
    (h : TxBody.deserialize b = .ok t) : BodyRep t ∧ t.update = false := by
  obtain ⟨l, _, hl, h⟩ := deserializeMap_inv h
  have := body_dec hb hl h
  exact ⟨this.1, this.2.1⟩

theorem empty_body_rep : BodyRep {} := by
  refine ⟨⟨?_, ?_, ?_⟩, ⟨?_, ?_⟩, ?_, ?_, ⟨?_, ?_⟩, ⟨?_, ?_, ?_⟩, ?_⟩ <;>
    simp [Fits, StrictSorted, U64]

theorem empty_wits_rep : WitsRep {} := by
  refine ⟨⟨?_, ?_⟩, ?_, ?_⟩ <;> simp [Fits]

theorem tx_dec {b : Bytes} (hb : b.length < 2 ^ 63) {t : Tx} (h : Tx.deserialize {} b = .ok t) :
    TxRep t ∧ t.body.update = false ∧ (∀ c ∈ t.body.certificates, c = .empty ∨ CertPreserved c) ∧
    WitsPreserved t.wits ∧ t.metadata = false := by
  obtain ⟨l, _, hl, h⟩ := deserializeArray_inv h
  simp only [Tx.deser, Out.bind_eq_ok, Out.ok.injEq] at h
  obtain ⟨bd, hbd, w, hw, rfl⟩ := h
  have h1 : BodyRep bd ∧ bd.update = false ∧ ∀ c ∈ bd.certificates, c = .empty ∨ CertPreserved c := by
    unfold bodyAt at hbd
    split at hbd
    · simp only [Out.ok.injEq] at hbd; subst hbd
      exact ⟨empty_body_rep, rfl, by simp⟩
    · next m hm =>
      cases h0 : l[0]? with
      | none => simp [h0] at hm
      | some i =>
        rw [h0, Option.bind_some] at hm
        exact body_dec hb ((hl i (List.mem_of_getElem? h0)).asMap hm).2 hbd
  have h2 : WitsRep w ∧ WitsPreserved w := by
    unfold witsAt at hw
    split at hw
    · simp only [Out.ok.injEq] at hw; subst hw
      exact ⟨empty_wits_rep, rfl, rfl⟩
    · next m hm =>
      cases h0 : l[1]? with
      | none => simp [h0] at hm
      | some i =>
        rw [h0, Option.bind_some] at hm
        exact wits_dec hb ((hl i (List.mem_of_getElem? h0)).asMap hm).2 hw
  exact ⟨⟨h1.1, h2.1⟩, h1.2.1, h1.2.2, h2.2, rfl⟩

/-- **C70** (transactions): a decoded transaction holds only values its types allow. -/
theorem C70_decoded_transaction (b : Bytes) (hb : b.length < 2 ^ 63) (t : Tx)
    (h : Tx.deserialize {} b = .ok t) : TxRep t := (tx_dec hb h).1

/-! ## Re-serialization is stable -/

/-- **C70**: the bytes of a decoded part decode to the same value again. -/
theorem C70_stable_parts (b : Bytes) (hb : b.length < 2 ^ 63) (rest : Bytes) :
    (∀ r, Rational.deserialize b = .ok r → Rational.deserialize (r.serialize ++ rest) = .ok r) ∧
    (∀ m, PoolMetadata.deserialize b = .ok m → PoolMetadata.deserialize (m.serialize ++ rest) = .ok m) ∧
    (∀ c, StakeCredential.deserialize b = .ok c → StakeCredential.deserialize (c.serialize ++ rest) = .ok c) ∧
    (∀ m, MIR.deserialize [] b = .ok m → MIR.deserialize [] (m.serialize ++ rest) = .ok m) ∧
    (∀ o, TxOut.deserialize b = .ok o → TxOut.deserialize (o.serialize ++ rest) = .ok o) ∧
    (∀ i, TxIn.deserialize b = .ok i → TxIn.deserialize (i.serialize ++ rest) = .ok i) := by
  obtain ⟨h1, h2, _, h4, h5, _, h7, h8⟩ := C70_decoded_parts b hb
  refine ⟨fun r h => ?_, fun r h => C44_metadata r (h2 r h) rest, fun r h => C44_credential r (h4 r h) rest,
    fun r h => ?_, fun r h => C43_output r (h7 r h) rest, fun r h => C43_input r (h8 r h) rest⟩
  · exact (C44_rational r (h1 r h).1 rest).1 (h1 r h).2
  · have := C44_mir [] r (h5 r h) rest
    simpa using this

/-- **C70** (certificates), exact: a decoded certificate re-serializes to bytes that decode to
it again unless its type number was unknown (7 or more), in which case the decoder returned an
object with no certificate in it. -/
theorem C70_stable_certificate (b : Bytes) (hb : b.length < 2 ^ 63) (c : Certificate)
    (h : Certificate.deserialize .empty b = .ok c) :
    (∃ s, c.serialize = .ok s ∧ ∀ old rest, Certificate.deserialize old (s ++ rest) = .ok c) ↔ c ≠ .empty := by
  obtain ⟨l, _, hl, h⟩ := deserializeArray_inv h
  have := cert_dec hb hl (old := .empty) trivial h
  rw [C44_roundtrip_iff_partial c this.1]
  rcases this.2 with rfl | hp
  · simp [CertPreserved]
  · simp only [hp, true_iff]; rintro rfl; exact hp

/-- **C70** (bodies), exact. -/
theorem C70_stable_body (b : Bytes) (hb : b.length < 2 ^ 63) (t : TxBody)
    (h : TxBody.deserialize b = .ok t) :
    (∃ s, t.serialize = .ok s ∧ ∀ rest, TxBody.deserialize (s ++ rest) = .ok t) ↔
      Certificate.empty ∉ t.certificates := by
  obtain ⟨l, _, hl, h⟩ := deserializeMap_inv h
  have := body_dec hb hl h
  rw [C43_body_iff_partial t this.1, BodyPreserved]
  constructor
  · rintro ⟨_, hp⟩ he; exact hp _ he
  · intro he
    refine ⟨this.2.1, fun c hc => ?_⟩
    rcases this.2.2 c hc with rfl | hp
    · exact absurd hc he
    · exact hp

/-- **C70** (transactions), exact: a decoded transaction re-serializes to bytes that decode to
it again, whatever follows them, if and only if none of its certificates had an unknown type
number.
Missing: stability of the others, which is false of the code (C70_unknown_certificate_breaks). -/
theorem C70_stable_transaction_partial (b : Bytes) (hb : b.length < 2 ^ 63) (t : Tx)
    (h : Tx.deserialize {} b = .ok t) :
    (∃ s, t.serialize = .ok s ∧ ∀ rest, Tx.deserialize {} (s ++ rest) = .ok t) ↔
      Certificate.empty ∉ t.body.certificates := by
  obtain ⟨h1, h2, h3, h4, h5⟩ := tx_dec hb h
  rw [C43_transaction_iff_partial t h1, BodyPreserved]
  constructor
  · rintro ⟨⟨_, hp⟩, _⟩ he; exact hp _ he
  · intro he
    refine ⟨⟨h2, fun c hc => ?_⟩, h4, h5⟩
    rcases h3 c hc with rfl | hp
    · exact absurd hc he
    · exact hp

/-- A transaction with one certificate of type 9: decoded, it holds an empty certificate ... -/
def unknownCertTx : Bytes :=
  [0x83, 0xa5, 0x00, 0x80, 0x01, 0x80, 0x02, 0x05, 0x03, 0x06, 0x04, 0x81, 0x82, 0x09, 0x00, 0xa0, 0xf6]

example : ∃ t, Tx.deserialize {} unknownCertTx = .ok t ∧ t.body.certificates = [.empty] ∧ t.body.fee = 5 := by
  refine ⟨{ body := { fee := 5, ttl := 6, certificates := [.empty] } }, ?_, rfl, rfl⟩
  rfl

/-- ... and the bytes written for it cannot be read back. -/
theorem C70_unknown_certificate_breaks : ∃ t s, Tx.deserialize {} unknownCertTx = .ok t ∧
    t.serialize = .ok s ∧ Tx.deserialize {} s = .throw .runtimeError :=
  ⟨{ body := { fee := 5, ttl := 6, certificates := [.empty] } }, _, rfl, rfl, rfl⟩

/-- A transaction with a 31-byte metadata hash is refused. -/
example : Tx.deserialize {} ([0x83, 0xa1, 0x07, 0x58, 0x1f] ++ List.replicate 31 0 ++ [0xa0, 0xf6]) =
    .throw .invalidArgument := rfl

/-- One with a 32-byte hash, a withdrawal and trailing bytes is accepted. -/
example : Tx.deserialize {} ([0x83, 0xa2, 0x07, 0x58, 0x20] ++ List.replicate 32 7 ++
      [0x05, 0xa1, 0x41, 0xe0, 0x18, 0x64, 0xa0, 0xf6, 0x99]) =
    .ok { body := { withdrawals := [([0xe0], 100)], metadataHash := some (List.replicate 32 7) } } := rfl

/-- **C70** fails for relays: a decoded relay with no usable address, with an IPv6 address, or of
an unknown type does not come back. -/
theorem C70_stable_relay (b : Bytes) (hb : b.length < 2 ^ 63) (r : Relay)
    (h : Relay.deserialize .empty b = .ok r) :
    (∃ s, r.serialize = .ok s ∧ ∀ old rest, Relay.deserialize old (s ++ rest) = .ok r) ↔ RelayPreserved r :=
  C45_roundtrip_iff_partial r ((C70_decoded_parts b hb).2.2.1 r h)

/-! ## Native scripts -/

/-- The script has a node with nothing in it (what an unknown script type decodes to). -/
inductive HasEmpty : Script → Prop
  | here : HasEmpty .empty
  | all {l : List Script} {s : Script} : s ∈ l → HasEmpty s → HasEmpty (.all l)
  | any {l : List Script} {s : Script} : s ∈ l → HasEmpty s → HasEmpty (.any l)
  | nOfK {n : Nat} {l : List Script} {s : Script} : s ∈ l → HasEmpty s → HasEmpty (.nOfK n l)

/-- What a decoded script looks like. -/
def DecScript (s : Script) : Prop := ScriptRep s ∧ (ScriptPreserved s ∨ HasEmpty s)

theorem decScript_list {L : Nat} (hL : L < 2 ^ 63) {l : List Script} (hl : l.length ≤ L)
    (h : ∀ s ∈ l, DecScript s) : DecScript (.all l) ∧ DecScript (.any l) := by
  have hf : Fits l := fits_le hL hl
  have hr : ∀ s ∈ l, ScriptRep s := fun s hs => (h s hs).1
  by_cases he : ∃ s ∈ l, HasEmpty s
  · obtain ⟨s, hs, he⟩ := he
    exact ⟨⟨.all hf hr, Or.inr (.all hs he)⟩, ⟨.any hf hr, Or.inr (.any hs he)⟩⟩
  · have hp : ∀ s ∈ l, ScriptPreserved s := fun s hs =>
      (h s hs).2.resolve_right fun e => he ⟨s, hs, e⟩
    exact ⟨⟨.all hf hr, Or.inl (.all hp)⟩, ⟨.any hf hr, Or.inl (.any hp)⟩⟩

theorem out_bind_inv {α β} {x : Out α} {f : α → Out β} {b : β} (h : x.bind f = .ok b) :
    ∃ a, x = .ok a ∧ f a = .ok b := by
  cases x <;> simp_all [Out.bind]

mutual
theorem scriptItem_dec {L : Nat} (hL : L < 2 ^ 63) : ∀ (i : Item) (s : Script), Sized L i →
    scriptItem i = .ok s → DecScript s
  | .tag _ i, s, hi, h => by
    cases hi with | tag _ hi => exact scriptItem_dec hL i s hi (by simpa [scriptItem] using h)
  | .array l, s, hi, h => by
    cases hi with | array _ hi => exact scriptData_dec hL l s hi (by simpa [scriptItem] using h)
  | .uint _, s, _, h | .nint _, s, _, h | .bstr _, s, _, h | .tstr _, s, _, h | .map _, s, _, h
  | .bool _, s, _, h | .null, s, _, h => by simp [scriptItem] at h
theorem scriptData_dec {L : Nat} (hL : L < 2 ^ 63) : ∀ (l : List Item) (s : Script), (∀ i ∈ l, Sized L i) →
    scriptData l = .ok s → DecScript s
  | [], s, _, h => by simp [scriptData] at h
  | [_], s, _, h => by simp [scriptData] at h
  | t :: a :: rest, s, hl, h => by
    have ha : Sized L a := hl a (by simp)
    unfold scriptData at h
    split at h
    · simp at h
    · unfold pubkeyDeser at h
      split at h
      · split at h
        · simp only [Out.bind_eq_ok, Out.ok.injEq] at h
          obtain ⟨x, hx, rfl⟩ := h
          exact ⟨.pubkey (reqLen_inv hx).2, Or.inl .pubkey⟩
        · simp at h
      · simp at h
    · split at h
      · obtain ⟨x, hx, h⟩ := out_bind_inv h
        simp only [Out.ok.injEq] at h; subst h
        have := scriptList_dec hL a x ha hx
        exact (decScript_list hL this.1 this.2).1
      · simp at h
    · split at h
      · obtain ⟨x, hx, h⟩ := out_bind_inv h
        simp only [Out.ok.injEq] at h; subst h
        have := scriptList_dec hL a x ha hx
        exact (decScript_list hL this.1 this.2).2
      · simp at h
    · unfold nOfKDeser at h
      split at h
      · split at h <;> simp at h
      · simp at h
    · simp only [Out.ok.injEq] at h; subst h
      exact ⟨.empty, Or.inr .here⟩
theorem scriptList_dec {L : Nat} (hL : L < 2 ^ 63) : ∀ (i : Item) (l : List Script), Sized L i →
    scriptList i = .ok l → l.length ≤ L ∧ ∀ s ∈ l, DecScript s
  | .tag _ i, l, hi, h => by
    cases hi with | tag _ hi => exact scriptList_dec hL i l hi (by simpa [scriptList] using h)
  | .array l', l, hi, h => by
    cases hi with
    | array hn hi =>
      have := scriptItems_dec hL l' l hi (by simpa [scriptList] using h)
      exact ⟨by omega, this.2⟩
  | .uint _, s, _, h | .nint _, s, _, h | .bstr _, s, _, h | .tstr _, s, _, h | .map _, s, _, h
  | .bool _, s, _, h | .null, s, _, h => by simp [scriptList] at h
theorem scriptItems_dec {L : Nat} (hL : L < 2 ^ 63) : ∀ (l : List Item) (r : List Script), (∀ i ∈ l, Sized L i) →
    scriptItems l = .ok r → r.length = l.length ∧ ∀ s ∈ r, DecScript s
  | [], r, _, h => by simp only [scriptItems, Out.ok.injEq] at h; subst h; simp
  | i :: l, r, hl, h => by
    unfold scriptItems at h
    obtain ⟨s, hs, h⟩ := out_bind_inv h
    obtain ⟨r', hr, h⟩ := out_bind_inv h
    simp only [Out.ok.injEq] at h; subst h
    have h1 := scriptItem_dec hL i s (hl i (by simp)) hs
    have h2 := scriptItems_dec hL l r' (fun j hj => hl j (by simp [hj])) hr
    refine ⟨by simp [h2.1], ?_⟩
    intro x hx
    rcases List.mem_cons.mp hx with rfl | hx
    · exact h1
    · exact h2.2 x hx
end

theorem preserved_not_empty {s : Script} (h : HasEmpty s) : ¬ ScriptPreserved s := by
  intro hp
  induction h with
  | here => cases hp
  | all hm _ ih => cases hp with | all hp => exact ih (hp _ hm)
  | any hm _ ih => cases hp with | any hp => exact ih (hp _ hm)
  | nOfK => cases hp

/-- **C70** (native scripts), exact: a decoded script holds only 28-byte key hashes and comes
back from its own bytes if and only if no script in it had an unknown type number. -/
theorem C70_stable_script (b : Bytes) (hb : b.length < 2 ^ 63) (s : Script)
    (h : Script.deserialize .empty b = .ok s) :
    ScriptRep s ∧ ((∀ old rest, Script.deserialize old (s.serialize ++ rest) = .ok s) ↔ ¬ HasEmpty s) := by
  obtain ⟨l, _, hl, h⟩ := deserializeArray_inv h
  have hd : DecScript s := by
    unfold Script.deser at h
    split at h
    · split at h
      · simp only [Out.ok.injEq] at h; subst h; exact ⟨.empty, Or.inr .here⟩
      · exact scriptData_dec hb _ _ hl h
    · exact scriptData_dec hb _ _ hl h
  refine ⟨hd.1, ?_⟩
  rw [C46_roundtrip_iff_partial s hd.1]
  constructor
  · intro hp he; exact preserved_not_empty he hp
  · intro hn; exact hd.2.resolve_right hn

/-- An accepted script: all of [key, any of []]. -/
example : ∃ s, Script.deserialize .empty ([0x82, 0x01, 0x82, 0x82, 0x00, 0x58, 0x1c] ++ List.replicate 28 9 ++
    [0x82, 0x02, 0x80]) = .ok s ∧ ¬ HasEmpty s := by
  refine ⟨.all [.pubkey (List.replicate 28 9), .any []], rfl, ?_⟩
  intro h
  cases h with
  | all hm h =>
    simp only [List.mem_cons, List.not_mem_nil, or_false] at hm
    rcases hm with rfl | rfl
    · cases h
    · cases h with | any hm _ => simp at hm

end Cardano.Ledger
