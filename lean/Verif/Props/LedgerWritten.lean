import Verif.Props.LedgerGrammar

/-! # What a serialized transaction means (C99) -/

namespace Cardano.Ledger

open Cardano.Cbor Cardano.Spec.Ledger

theorem mapOut_means {α β} {f : α → Out (List Item)} {P : Item → β → Prop} (g : α → β) : ∀ (cs : List α) (l : List (List Item)),
    mapOut f cs = .ok l → (∀ c ∈ cs, ∀ x, f c = .ok x → P (.array x) (g c)) → List.Forall₂ P (l.map .array) (cs.map g)
  | [], l, h, _ => by
    simp only [mapOut, Out.ok.injEq] at h; subst h; exact .nil
  | c :: cs, l, h, hf => by
    rw [mapOut] at h
    obtain ⟨x, e1, h⟩ := Out.bind_eq_ok.mp h
    obtain ⟨xs, e2, h⟩ := Out.bind_eq_ok.mp h
    simp only [Out.ok.injEq] at h; subst h
    exact .cons (hf c (by simp) x e1) (mapOut_means g cs xs e2 fun c hc => hf c (by simp [hc]))

theorem cred_written (c : StakeCredential) (h : CredRep c) : CredMeans (.array c.ser) c := by
  obtain ⟨t, b⟩ := c
  cases t <;> exact ⟨rfl, h⟩

theorem port_written (p : Option Nat) (h : ∀ q ∈ p, q < 2 ^ 16) : OptMeans PortMeans (portItem p) p := by
  cases p with
  | none => rfl
  | some p => exact ⟨rfl, by have := h p rfl; omega⟩

theorem relay_written (r : Relay) (h : RelayRep r) (hc : RelayConforms r) (l : List Item) (hl : r.ser = .ok l) :
    RelayMeans (.array l) (relayWritten r) := by
  rcases r with _ | ⟨_ | v4, v6, p⟩ | ⟨d, p⟩ | d
  · exact absurd hc id
  · cases v6 <;> exact absurd hc id
  · simp only [Relay.ser, Out.ok.injEq] at hl; subst hl
    exact ⟨_, _, _, rfl, port_written p h.2.2, ⟨rfl, h.1 v4 rfl⟩, rfl⟩
  · simp only [Relay.ser, Out.ok.injEq] at hl; subst hl
    exact ⟨_, rfl, port_written p h.2, hc⟩
  · simp only [Relay.ser, Out.ok.injEq] at hl; subst hl
    exact ⟨rfl, hc⟩

theorem mir_written (m : MIR) (h : MirRep m) (hc : (m.creds.map (·.1)).Nodup) : MirMeans (.array m.ser) m := by
  refine ⟨m.creds.map fun e => (.array e.1.ser, .uint e.2), ?_, ?_, ?_⟩
  · rw [MIR.ser, mirEntries_flat]
    cases m.source <;> rfl
  · rw [List.map_map]
    have := nodup_map_inj (fun c : StakeCredential => Item.array c.ser) (fun a b h => cred_ser_inj a b (by injection h)) hc
    rw [List.map_map] at this
    exact this
  · rw [List.forall₂_map_left_iff]
    have := h.2
    generalize m.creds = cs at this
    induction cs with
    | nil => exact .nil
    | cons e cs ih => exact .cons ⟨cred_written _ (this e (by simp)).1, rfl⟩ (ih fun x hx => this x (by simp [hx]))

theorem cert_written (c : Certificate) (h : CertRep c) (hc : CertConforms c) (l : List Item) (hl : c.ser = .ok l) :
    CertMeans (.array l) (certWritten c) := by
  cases c with
  | empty => exact absurd hc id
  | stakeReg c => simp only [Certificate.ser, Out.ok.injEq] at hl; subst hl; exact ⟨_, rfl, cred_written c h⟩
  | stakeDereg c => simp only [Certificate.ser, Out.ok.injEq] at hl; subst hl; exact ⟨_, rfl, cred_written c h⟩
  | delegation c p => simp only [Certificate.ser, Out.ok.injEq] at hl; subst hl; exact ⟨_, rfl, cred_written c h.1, h.2⟩
  | poolRetire p e => simp only [Certificate.ser, Out.ok.injEq] at hl; subst hl; exact ⟨rfl, h.1⟩
  | genesisDeleg x y z => simp only [Certificate.ser, Out.ok.injEq] at hl; subst hl; exact ⟨rfl, h⟩
  | mir m => simp only [Certificate.ser, Out.ok.injEq] at hl; subst hl; exact ⟨_, rfl, mir_written m h hc⟩
  | poolReg p =>
    simp only [Certificate.ser] at hl
    obtain ⟨ps, hps, e⟩ := Out.bind_eq_ok.mp hl
    simp only [Out.ok.injEq] at e; subst e
    obtain ⟨rs, hrs, rfl⟩ := pool_ser_ok p ps hps
    obtain ⟨h1, h2, -, -, -, -, ⟨-, hos, hol⟩, ⟨-, hr⟩, hm⟩ := h
    obtain ⟨c1, c2, c3, m, c4, c5⟩ := hc
    refine ⟨p.owners.map .bstr, rs.map .array, .array m.ser, ?_, h1, h2, hos, ?_, hol, ?_, ?_⟩
    · simp [ownersItem, c1, c2, c4, metadataItem, Rational.ser, certWritten]
    · intro x
      rw [List.mem_map]
      constructor
      · rintro ⟨o, ho, rfl⟩; exact ⟨o, ho, rfl, hol o ho⟩
      · rintro ⟨o, ho, rfl, -⟩; exact ⟨o, ho, rfl⟩
    · exact mapOut_means relayWritten _ _ hrs fun r hr' x hx => relay_written r (hr r hr') (c3 r hr') x hx
    · simp only [c4]
      exact ⟨rfl, c5, (hm m c4).2⟩

theorem serScripts_map (l : List Script) : serScripts l = l.map fun s => .array s.ser := by
  induction l with
  | nil => rfl
  | cons s l ih => rw [serScripts, ih]; rfl

theorem script_written (s : Script) (h : ScriptRep s) (hf : ScriptFull s) : ScriptMeans (.array s.ser) s := by
  induction h with
  | empty => cases hf
  | pubkey hl => exact .pubkey hl
  | @all l _ _ ih =>
    cases hf with
    | all hf =>
      have := ScriptMeans.all (ps := l.map fun s => (.array s.ser, s)) (by
        intro p hp; obtain ⟨s, hs, rfl⟩ := List.mem_map.mp hp; exact ih s hs (hf s hs))
      rw [List.map_map, List.map_map] at this
      rw [Script.ser, serScripts_map]
      simpa [Function.comp_def] using this
  | @any l _ _ ih =>
    cases hf with
    | any hf =>
      have := ScriptMeans.any (ps := l.map fun s => (.array s.ser, s)) (by
        intro p hp; obtain ⟨s, hs, rfl⟩ := List.mem_map.mp hp; exact ih s hs (hf s hs))
      rw [List.map_map, List.map_map] at this
      rw [Script.ser, serScripts_map]
      simpa [Function.comp_def] using this
  | @nOfK n l _ _ _ ih =>
    cases hf with
    | nOfK hf =>
      have := ScriptMeans.nOfK (n := n) (ps := l.map fun s => (.array s.ser, s)) (by
        intro p hp; obtain ⟨s, hs, rfl⟩ := List.mem_map.mp hp; exact ih s hs (hf s hs))
      rw [List.map_map, List.map_map] at this
      rw [Script.ser, serScripts_map]
      simpa [Function.comp_def] using this

theorem forall₂_map_self {α β} {P : β → α → Prop} (f : α → β) (l : List α) (h : ∀ a ∈ l, P (f a) a) :
    List.Forall₂ P (l.map f) l := by
  induction l with
  | nil => exact .nil
  | cons a l ih => exact .cons (h a (by simp)) (ih fun x hx => h x (by simp [hx]))

theorem body_written (b : TxBody) (h : BodyRep b) (hc : ∀ c ∈ b.certificates, CertConforms c) (l : List Item)
    (hl : b.ser = .ok l) :
    BodyMeans (.map l) { b with certificates := b.certificates.map certWritten, update := false } := by
  obtain ⟨cs, hcs, rfl⟩ := body_ser_ok b l hl
  obtain ⟨⟨_, hi1, hi2⟩, ⟨_, ho⟩, _, _, ⟨_, hcr⟩, ⟨_, hw, _⟩, hm⟩ := h
  rw [← bodyPairs_flat]
  refine ⟨bodyPairs b cs, rfl, ?_, ?_, ?_, ?_, ?_, ?_, ?_, ?_, ?_, ?_⟩
  · unfold bodyPairs
    by_cases h1 : b.certificates = [] <;> by_cases h2 : b.withdrawals = [] <;> cases h3 : b.metadataHash <;>
      simp [h1, h2]
  · unfold bodyPairs
    by_cases h1 : b.certificates = [] <;> by_cases h2 : b.withdrawals = [] <;> cases h3 : b.metadataHash <;>
      simp [h1, h2]
  · refine ⟨b.inputs.map fun i => .array i.ser, by simp [bodyPairs], (inputsC _ hi1 hi2).1, hi1, ?_, ?_⟩
    · intro x hx
      obtain ⟨t, ht, rfl⟩ := List.mem_map.mp hx
      exact ⟨t, ht, rfl, (hi2 t ht).1⟩
    · intro t ht
      exact ⟨_, List.mem_map_of_mem ht, rfl, (hi2 t ht).1⟩
  · exact ⟨.array (b.outputs.map fun o => .array o.ser), by simp [bodyPairs], _, rfl,
      forall₂_map_self (fun o : TxOut => Item.array o.ser) _ fun o _ => rfl⟩
  · simp [bodyPairs]
  · simp [bodyPairs]
  · by_cases h4 : b.certificates = []
    · refine Or.inr ⟨?_, by simp [h4]⟩
      unfold bodyPairs
      by_cases h2 : b.withdrawals = [] <;> cases h3 : b.metadataHash <;> simp [h4, h2]
    · exact Or.inl ⟨.array (cs.map .array), by simp [bodyPairs, h4], _, rfl,
        mapOut_means certWritten _ _ hcs fun c hc' x hx => cert_written c (hcr c hc') (hc c hc') x hx⟩
  · by_cases h5 : b.withdrawals = []
    · refine Or.inr ⟨?_, h5⟩
      unfold bodyPairs
      by_cases h2 : b.certificates = [] <;> cases h3 : b.metadataHash <;> simp [h5, h2]
    · refine Or.inl ⟨.map (withdrawalItems b.withdrawals), by simp [bodyPairs, h5], b.withdrawals, ?_,
        sorted_nodup bytesLt_order _ hw, hw, List.Perm.refl _⟩
      rw [withdrawalItems_flat, List.flatMap_map]; rfl
  · unfold bodyPairs
    by_cases h1 : b.certificates = [] <;> by_cases h2 : b.withdrawals = [] <;> cases h3 : b.metadataHash <;>
      simp [h1, h2]
  · cases h7 : b.metadataHash with
    | none =>
      refine Or.inr ⟨?_, rfl⟩
      unfold bodyPairs
      by_cases h1 : b.certificates = [] <;> by_cases h2 : b.withdrawals = [] <;> simp [h1, h2, h7]
    | some x => exact Or.inl ⟨.bstr x, by simp [bodyPairs, h7], x, rfl, hm x h7, rfl⟩

theorem wits_written (w : WitnessSet) (h : WitsRep w) (hf : ∀ s ∈ w.multisig, ScriptFull s) :
    WitsMeans (.map w.ser) { w with bootstrap := [] } := by
  have flat : w.ser = (witsPairs w).flatMap fun kv => [Item.uint kv.1, kv.2] := by
    unfold witsPairs WitnessSet.ser vkeysEntry multisigEntry bootstrapEntry
    by_cases h1 : w.vkeys = [] <;> by_cases h2 : w.multisig.isEmpty = true <;> by_cases h3 : w.bootstrap = [] <;>
      simp [h1, h2, h3]
  rw [flat]
  have keys : ∀ k, k ∈ (witsPairs w).map (·.1) ↔
      (k = 0 ∧ w.vkeys ≠ []) ∨ (k = 1 ∧ w.multisig ≠ []) ∨ (k = 2 ∧ w.bootstrap ≠ []) := by
    intro k
    unfold witsPairs
    by_cases h1 : w.vkeys = [] <;> by_cases h2 : w.multisig = [] <;> by_cases h3 : w.bootstrap = [] <;>
      simp [h1, h2, h3, List.isEmpty_iff]
  refine ⟨witsPairs w, rfl, ?_, ?_, ?_, ?_, ?_⟩
  · unfold witsPairs
    by_cases h1 : w.vkeys = [] <;> by_cases h2 : w.multisig.isEmpty = true <;> by_cases h3 : w.bootstrap = [] <;>
      simp [h1, h2, h3]
  · intro k hk
    rw [keys] at hk
    omega
  · by_cases h0 : w.vkeys = []
    · exact Or.inr ⟨by rw [keys]; simp [h0], h0⟩
    · exact Or.inl ⟨.array (w.vkeys.map fun v => .array v.ser), by simp [witsPairs, h0], _, rfl,
        forall₂_map_self _ _ fun v hv => ⟨rfl, h.1.2 v hv⟩⟩
  · by_cases h1 : w.multisig = []
    · exact Or.inr ⟨by rw [keys]; simp [h1], h1⟩
    · refine Or.inl ⟨.array (serScripts w.multisig), by simp [witsPairs, h1], _, rfl, ?_⟩
      rw [serScripts_map]
      exact forall₂_map_self _ _ fun s hs => script_written s (h.2.2 s hs) (hf s hs)
  · by_cases h2 : w.bootstrap = []
    · exact Or.inr ⟨by rw [keys]; simp [h2], rfl⟩
    · exact Or.inl ⟨.array [], by simp [witsPairs, h2], [], rfl, .nil⟩

/-- The transactions whose serialization the ledger can read at all. -/
def Writable (t : Tx) : Prop :=
  (∀ c ∈ t.body.certificates, CertConforms c) ∧ (∀ s ∈ t.wits.multisig, ScriptFull s) ∧ t.metadata = false

/-- **C99** (writing).  Take any transaction the library can hold and that it serializes.  If every certificate conforms (no
empty certificate, no credential twice in a reward movement, pool registrations with owners, well-formed relays and
metadata), no script has an empty node and there is no metadata, then the bytes mean that transaction without the update, the
bootstrap witnesses and the IPv6 addresses of relays — whatever follows them.  Otherwise they mean no transaction. -/
theorem C99_written (t : Tx) (h : TxRep t) (b rest : Bytes) (hb : t.serialize = .ok b) :
    ∃ i, parse (b ++ rest) = some i ∧ (Writable t → TxMeans i (txWritten t)) ∧ (¬ Writable t → ∀ t', ¬ TxMeans i t') := by
  obtain ⟨l, hl, e⟩ := Out.bind_eq_ok.mp (show (t.ser >>= fun l => .ok (encArray l)) = .ok b from hb)
  simp only [Out.ok.injEq] at e; subst e
  refine ⟨.array l, parse_enc_append _ (tx_wf t h l hl) rest, ?_, ?_⟩
  · rintro ⟨w1, w2, w3⟩
    unfold Tx.ser at hl
    obtain ⟨bb, hbb, e⟩ := Out.bind_eq_ok.mp hl
    simp only [Out.ok.injEq] at e; subst e
    rw [w3]
    exact ⟨_, _, _, rfl, body_written t.body h.1 w1 bb hbb, wits_written t.wits h.2 w2, by simp [txWritten, w3]⟩
  · intro hw t' ht
    exact hw ((C64_transaction_partial t h l hl).mp ((C99_grammar _).1.mpr ⟨t', ht⟩))

/-- The relays of a certificate name no IPv6 address. -/
def NoIpv6 : Certificate → Prop
  | .poolReg p => ∀ r ∈ p.relays, ∀ v4 v6 port, r = .addr v4 (some v6) port → False
  | _ => True

theorem relayWritten_eq (r : Relay) : relayWritten r = r ↔ ∀ v4 v6 port, r = .addr v4 (some v6) port → False := by
  rcases r with _ | ⟨v4, _ | v6, p⟩ | ⟨d, p⟩ | d <;> simp [relayWritten]

theorem map_eq_self {α} (f : α → α) (l : List α) : l.map f = l ↔ ∀ x ∈ l, f x = x := by
  induction l with
  | nil => simp
  | cons a l ih => simp [ih]

theorem certWritten_eq (c : Certificate) : certWritten c = c ↔ NoIpv6 c := by
  cases c with
  | poolReg p =>
    have : (certWritten (.poolReg p) = .poolReg p) ↔ p.relays.map relayWritten = p.relays := by
      obtain ⟨_, _, _, _, _, _, _, _, _⟩ := p
      simp [certWritten]
    rw [this, map_eq_self]
    simp only [relayWritten_eq, NoIpv6]
  | _ => simp [certWritten, NoIpv6]

/-- **C99** (exactly when writing is faithful).  The serialized bytes mean the transaction itself if and only if it is
writable, has no update and no bootstrap witnesses, and no relay has an IPv6 address. -/
theorem C99_faithful_iff (t : Tx) (h : TxRep t) (b rest : Bytes) (hb : t.serialize = .ok b) :
    (∃ i, parse (b ++ rest) = some i ∧ TxMeans i t) ↔
      Writable t ∧ t.body.update = false ∧ t.wits.bootstrap = [] ∧ ∀ c ∈ t.body.certificates, NoIpv6 c := by
  obtain ⟨i, hp, h1, h2⟩ := C99_written t h b rest hb
  have he : txWritten t = t ↔ t.body.update = false ∧ t.wits.bootstrap = [] ∧ ∀ c ∈ t.body.certificates, NoIpv6 c := by
    have : txWritten t = t ↔ t.body.certificates.map certWritten = t.body.certificates ∧ t.body.update = false ∧
        t.wits.bootstrap = [] := by
      obtain ⟨⟨_, _, _, _, _, _, _, _⟩, ⟨_, _, _⟩, _⟩ := t
      simp only [txWritten, Tx.mk.injEq, TxBody.mk.injEq, WitnessSet.mk.injEq, true_and, and_true]
      constructor
      · rintro ⟨⟨a, b⟩, c⟩; exact ⟨a, b.symm, c.symm⟩
      · rintro ⟨a, b, c⟩; exact ⟨⟨a, b.symm⟩, c.symm⟩
    rw [this, map_eq_self]
    simp only [certWritten_eq]
    tauto
  constructor
  · rintro ⟨i', hp', hm⟩
    rw [hp] at hp'
    injection hp' with hp'; subst hp'
    by_cases hw : Writable t
    · exact ⟨hw, he.mp ((C99_grammar _).2 _ _ (h1 hw) hm)⟩
    · exact absurd hm (h2 hw t)
  · rintro ⟨hw, hr⟩
    refine ⟨i, hp, ?_⟩
    have := h1 hw
    rwa [he.mpr hr] at this

/-! ## The hypotheses can be met -/

/-- A transaction with two inputs, two outputs, a delegation, a pool registration with relays and metadata, a withdrawal, a
metadata hash, a key witness and a script witness. -/
def c99Tx : Tx where
  body := { inputs := [⟨List.replicate 32 1, 0⟩, ⟨List.replicate 32 1, 7⟩]
            outputs := [⟨[0x61, 1], 5000000⟩, ⟨[0x61, 2], 1⟩], fee := 170000, ttl := 90000000
            certificates := [.delegation ⟨.keyHash, List.replicate 28 4⟩ (List.replicate 28 5),
              .poolReg { operator := List.replicate 28 5, vrfKeyHash := List.replicate 32 6, pledge := 7, cost := 340000000,
                         margin := ⟨1, 20⟩, rewardAccount := [0xe1], owners := [List.replicate 28 4]
                         relays := [.addr (some [1, 2, 3, 4]) none (some 3001), .multi (ascii "r.io")]
                         metadata := some ⟨ascii "https://p.io", List.replicate 32 8⟩ }]
            withdrawals := [([0xe1, 9], 12)], metadataHash := some (List.replicate 32 3) }
  wits := { vkeys := [⟨List.replicate 32 1, List.replicate 64 2⟩], multisig := [.nOfK 1 [.pubkey (List.replicate 28 9)]] }

theorem c99Tx_rep : TxRep c99Tx := by
  refine ⟨⟨⟨by simp [Fits, U64, c99Tx], ?_, ?_⟩, ⟨by simp [Fits, U64, c99Tx], ?_⟩, by simp [Fits, U64, c99Tx], by simp [Fits, U64, c99Tx], ⟨by simp [Fits, U64, c99Tx], ?_⟩,
    ⟨by simp [Fits, U64, c99Tx], ?_, ?_⟩, ?_⟩, ⟨by simp [Fits, U64, c99Tx], ?_⟩, ⟨by simp [Fits, U64, c99Tx], ?_⟩⟩
  · simp only [c99Tx, StrictSorted]; decide +kernel
  · intro i hi; simp [c99Tx] at hi; rcases hi with rfl | rfl <;> simp [InRep, U64]
  · intro o ho; simp [c99Tx] at ho; rcases ho with rfl | rfl <;> simp [OutRep, U64, Fits]
  · intro c hc
    simp [c99Tx] at hc
    rcases hc with rfl | rfl
    · simp [CertRep, CredRep]
    · refine ⟨rfl, rfl, by simp [Fits, U64, c99Tx], by simp [Fits, U64, c99Tx], ⟨by simp [Fits, U64, c99Tx], by simp [Fits, U64, c99Tx]⟩, by simp [Fits, U64, c99Tx],
        ⟨by simp [Fits, U64, c99Tx], by simp [StrictSorted], by simp⟩, ⟨by simp [Fits, U64, c99Tx], ?_⟩, ?_⟩
      · intro r hr; simp at hr; rcases hr with rfl | rfl <;> simp [RelayRep, Fits, ascii]
      · intro m hm; simp at hm; subst hm; simp [MetaRep, Fits, ascii]
  · simp [c99Tx, StrictSorted]
  · intro w hw; simp [c99Tx] at hw; subst hw; simp [Fits, U64]
  · intro m hm; simp [c99Tx] at hm; subst hm; rfl
  · intro v hv; simp [c99Tx] at hv; subst hv; simp [VkeyRep]
  · intro s hs; simp [c99Tx] at hs; subst hs
    exact .nOfK (by simp [Fits, U64, c99Tx]) (by simp [Fits, U64, c99Tx]) fun s hs => by simp at hs; subst hs; exact .pubkey (by rfl)

theorem c99Tx_writable : Writable c99Tx := by
  refine ⟨fun c hc => ?_, fun s hs => ?_, rfl⟩
  · simp [c99Tx] at hc
    rcases hc with rfl | rfl
    · trivial
    · exact ⟨by simp, by simp, fun r hr => by simp at hr; rcases hr with rfl | rfl <;> simp [RelayConforms, ascii],
        _, rfl, by simp [ascii]⟩
  · simp [c99Tx] at hs; subst hs
    exact .nOfK fun s hs => by simp at hs; subst hs; exact .pubkey

/-- Its bytes mean it; reading them back gives it without relays, pool metadata and script. -/
theorem c99Tx_bytes : ∃ b i, c99Tx.serialize = .ok b ∧ parse b = some i ∧ TxMeans i c99Tx ∧
    Tx.deserialize {} b = .ok (txRead c99Tx) := by
  obtain ⟨b, hb⟩ : ∃ b, c99Tx.serialize = .ok b := ⟨_, rfl⟩
  obtain ⟨i, hp, hm⟩ := (C99_faithful_iff c99Tx c99Tx_rep b [] hb).mpr
    ⟨c99Tx_writable, rfl, rfl, fun c hc => by
      simp [c99Tx] at hc
      rcases hc with rfl | rfl
      · trivial
      · intro r hr; simp at hr; rcases hr with rfl | rfl <;> simp⟩
  rw [List.append_nil] at hp
  refine ⟨b, i, hb, hp, hm, (C99_read b i c99Tx hp hm).1 fun c hc => ?_⟩
  simp [c99Tx] at hc
  rcases hc with rfl | rfl
  · trivial
  · simp [CertReadable]

set_option maxRecDepth 50000 in
/-- A transaction in another encoding — keys in reverse order, longer integers and lengths — with a bootstrap witness
and metadata: it means a transaction, and reading it drops both. -/
example : ∃ i t, parse ([0x83, 0xa4, 0x03, 0x18, 0x05, 0x02, 0x19, 0x00, 0x06, 0x01, 0x80, 0x00, 0x98, 0x00,
      0xa1, 0x18, 0x02, 0x81, 0x84, 0x58, 0x20] ++ List.replicate 32 1 ++ [0x58, 0x40] ++ List.replicate 64 2 ++ [0x58, 0x20] ++
      List.replicate 32 3 ++ [0x40, 0xa0]) = some i ∧ TxMeans i t ∧ t.wits.bootstrap.length = 1 ∧ t.metadata = true ∧
      (txRead t).body.ttl = 5 ∧ (txRead t).body.fee = 6 := by
  refine ⟨.array [.map [.uint 3, .uint 5, .uint 2, .uint 6, .uint 1, .array [], .uint 0, .array []],
      .map [.uint 2, .array [.array [.bstr (List.replicate 32 1), .bstr (List.replicate 64 2), .bstr (List.replicate 32 3),
        .bstr []]]], .map []],
    ⟨{ fee := 6, ttl := 5 }, { bootstrap := [⟨List.replicate 32 1, List.replicate 64 2, List.replicate 32 3, []⟩] }, true⟩,
    rfl, ⟨_, _, _, rfl, ⟨[(3, .uint 5), (2, .uint 6), (1, .array []), (0, .array [])], rfl, by simp, by simp,
      ⟨[], by simp, by simp, List.Pairwise.nil, by simp, by simp⟩, ⟨.array [], by simp, [], rfl, .nil⟩, by simp, by simp,
      Or.inr ⟨by simp, rfl⟩, Or.inr ⟨by simp, rfl⟩, by simp, Or.inr ⟨by simp, rfl⟩⟩,
      ⟨[(2, .array [_])], rfl, by simp, by simp, Or.inr ⟨by simp, rfl⟩, Or.inr ⟨by simp, rfl⟩,
        Or.inl ⟨_, List.mem_singleton.mpr rfl, [_], rfl, .cons ⟨rfl, rfl, rfl, rfl⟩ .nil⟩⟩, by simp⟩, rfl, rfl, rfl, rfl⟩

end Cardano.Ledger
