import Verif.Lemmas.Ledger

/-! # C43–C46: CBOR round trips of the Shelley ledger types -/

namespace Cardano.Ledger

open Cardano.Cbor Cardano.Spec.Ledger

/-! ## Rational, metadata, credentials -/

/-- **C44** (margins): a rational round trips exactly when its denominator is not 0; with
denominator 0 the bytes are rejected. -/
theorem C44_rational (r : Rational) (h : RatRep r) (rest : Bytes) :
    (r.den ≠ 0 → Rational.deserialize (r.serialize ++ rest) = .ok r) ∧
    (r.den = 0 → Rational.deserialize (r.serialize ++ rest) = .throw .runtimeError) := by
  have e : Rational.deserialize (r.serialize ++ rest) =
      Rational.deser 30 (.array [.uint r.num, .uint r.den]) := by
    unfold Rational.deserialize Rational.serialize
    have := rat_wf r h
    unfold Rational.ser at *
    rw [deserializeTag_enc _ _ _ _ this]
  rw [e]
  constructor <;> intro hd <;> simp [Rational.deser, asArray, untag, asUint, hd]

example : Rational.deserialize ((⟨3, 7⟩ : Rational).serialize) = .ok ⟨3, 7⟩ := by decide +kernel
example : (⟨3, 7⟩ : Rational).serialize = [0xd8, 0x1e, 0x82, 0x03, 0x07] := by decide +kernel

theorem meta_deser (m : PoolMetadata) (h : m.hash.length = 32) : PoolMetadata.deser m.ser = .ok m := by
  simp [PoolMetadata.deser, PoolMetadata.ser, asTstr, asBstr, untag, reqLen, h]

/-- **C44** (pool metadata): every metadata reference round trips. -/
theorem C44_metadata (m : PoolMetadata) (h : MetaRep m) (rest : Bytes) :
    PoolMetadata.deserialize (m.serialize ++ rest) = .ok m := by
  unfold PoolMetadata.deserialize PoolMetadata.serialize
  rw [deserializeArray_enc _ _ _ (meta_wf m h), meta_deser m h.2]

theorem cred_deser (c : StakeCredential) (h : CredRep c) : StakeCredential.deser c.ser = .ok c := by
  obtain ⟨t, b⟩ := c
  have hb : b.length = 28 := h
  cases t <;>
    simp [StakeCredential.deser, StakeCredential.ser, asUint, asBstr, untag, CredType.num, credTypeOf, reqLen, hb]

/-- **C44** (credentials): every stake credential round trips. -/
theorem C44_credential (c : StakeCredential) (h : CredRep c) (rest : Bytes) :
    StakeCredential.deserialize (c.serialize ++ rest) = .ok c := by
  unfold StakeCredential.deserialize StakeCredential.serialize
  rw [deserializeArray_enc _ _ _ (cred_wf c h), cred_deser c h]

theorem mirLoop_entries (l : List (StakeCredential × Nat)) (h : ∀ e ∈ l, CredRep e.1) :
    mirLoop (mirEntries l) = .ok l := by
  induction l with
  | nil => rfl
  | cons e l ih =>
    obtain ⟨c, v⟩ := e
    have hc := cred_deser c (h (c, v) (by simp))
    simp only [mirEntries, mirLoop, asArray, untag, deref, Out.ok_bind, hc, asUint,
      ih (fun e he => h e (by simp [he]))]

theorem mir_deser (old : List (StakeCredential × Nat)) (m : MIR) (h : ∀ e ∈ m.creds, CredRep e.1) :
    MIR.deser old m.ser = .ok ⟨m.source, old ++ m.creds⟩ := by
  obtain ⟨s, cs⟩ := m
  cases s <;>
    simp [MIR.deser, MIR.ser, asUint, asMap, untag, RewardSource.num, sourceOf, mirLoop_entries cs h]

/-- **C44** (MIR): reading into a fresh object gives back the rewards; reading into an object
that already has entries *appends* to them. -/
theorem C44_mir (old : List (StakeCredential × Nat)) (m : MIR) (h : MirRep m) (rest : Bytes) :
    MIR.deserialize old (m.serialize ++ rest) = .ok ⟨m.source, old ++ m.creds⟩ := by
  unfold MIR.deserialize MIR.serialize
  rw [deserializeArray_enc _ _ _ (mir_wf m h), mir_deser old m (fun e he => (h.2 e he).1)]

/-! ## C45: relays -/

theorem portOf_item (p : Option Nat) (h : ∀ q ∈ p, q < 2 ^ 16) : portOf (portItem p) = p := by
  cases p with
  | none => rfl
  | some q =>
    have := h q rfl
    simp [portOf, portItem, asUint, untag, Nat.mod_eq_of_lt this]

theorem asTstr_tstr (b : Bytes) : asTstr (.tstr b) = some b := rfl
theorem asBstr_bstr (b : Bytes) : asBstr (.bstr b) = some b := rfl

/-- What comes back for each relay. -/
theorem relay_deser (old r : Relay) (h : RelayRep r) :
    (r.ser >>= Relay.deser old) = match r with
      | .empty => .throw .runtimeError
      | .addr (some v4) _ port => .ok (.addr (some v4) none port)
      | .addr none (some _) _ => .throw .badOptional
      | .addr none none _ => .throw .runtimeError
      | .name dns port => .ok (.name dns port)
      | .multi dns => .ok (.multi dns) := by
  cases r with
  | empty => rfl
  | addr v4 v6 port =>
    obtain ⟨h4, h6, hp⟩ := h
    cases v4 with
    | some v4 =>
      have := h4 v4 rfl
      simp [Relay.ser, Relay.deser, asUint, untag, ipOf, asBstr, this, portOf_item port hp]
    | none =>
      cases v6 with
      | some v6 => rfl
      | none => simp [Relay.ser, Relay.deser, asUint, untag]
  | name dns port => simp [Relay.ser, Relay.deser, asUint, untag, asTstr, portOf_item port h.2]
  | multi dns => simp [Relay.ser, Relay.deser, asUint, untag, asTstr]

theorem relay_bytes (old r : Relay) (h : RelayRep r) (rest : Bytes) :
    (r.serialize >>= fun b => Relay.deserialize old (b ++ rest)) = (r.ser >>= Relay.deser old) := by
  unfold Relay.serialize
  cases hs : r.ser with
  | ok l =>
    simp only [Out.ok_bind]
    exact deserializeArray_enc _ _ _ (relay_wf r h l hs)
  | throw e => rfl
  | ub => rfl

/-- **C45**, exact: the relays that serialize and come back unchanged, whatever object they
are read into and whatever bytes follow, are the host names and the addresses with an IPv4 and
no IPv6 address. -/
theorem C45_roundtrip_iff_partial (r : Relay) (h : RelayRep r) :
    (∃ b, r.serialize = .ok b ∧ ∀ old rest, Relay.deserialize old (b ++ rest) = .ok r) ↔
      RelayPreserved r := by
  have key := relay_bytes .empty r h []
  rw [relay_deser .empty r h] at key
  constructor
  · rintro ⟨b, hb, hd⟩
    rw [hb, Out.ok_bind, hd] at key
    cases r with
    | empty => simp at key
    | addr v4 v6 port =>
      cases v4 with
      | some v4 => cases v6 <;> simp_all [RelayPreserved]
      | none => cases v6 <;> simp at key
    | name dns port => trivial
    | multi dns => trivial
  · intro hp
    have hser : ∃ b, r.serialize = .ok b := by
      cases r with
      | empty => exact absurd hp (by simp [RelayPreserved])
      | addr v4 v6 port =>
        cases v4 with
        | some v4 => exact ⟨_, rfl⟩
        | none => cases v6 <;> simp [RelayPreserved] at hp
      | name dns port => exact ⟨_, rfl⟩
      | multi dns => exact ⟨_, rfl⟩
    obtain ⟨b, hb⟩ := hser
    refine ⟨b, hb, fun old rest => ?_⟩
    have := relay_bytes old r h rest
    rw [relay_deser old r h, hb, Out.ok_bind] at this
    rw [this]
    cases r with
    | empty => exact absurd hp (by simp [RelayPreserved])
    | addr v4 v6 port =>
      cases v4 with
      | some v4 => cases v6 <;> simp_all [RelayPreserved]
      | none => cases v6 <;> simp [RelayPreserved] at hp
    | name dns port => rfl
    | multi dns => rfl

/-- **C45** fails for IPv6-only relays: `serialize` throws `std::bad_optional_access`. -/
theorem C45_ipv6_only_throws (v6 : Bytes) (port : Option Nat) :
    (Relay.addr none (some v6) port).serialize = .throw .badOptional := rfl

/-- **C45** fails for relays with both addresses: the IPv6 address is dropped. -/
theorem C45_ipv6_dropped (v4 v6 : Bytes) (port : Option Nat)
    (h : RelayRep (.addr (some v4) (some v6) port)) (old : Relay) :
    ∃ b, (Relay.addr (some v4) (some v6) port).serialize = .ok b ∧
      Relay.deserialize old b = .ok (.addr (some v4) none port) := by
  have := relay_bytes old _ h []
  rw [relay_deser old _ h] at this
  refine ⟨_, rfl, ?_⟩
  simpa [Relay.serialize, Relay.ser] using this

/-- **C45** fails for relays without any address: the bytes written are rejected on reading. -/
theorem C45_no_address (port : Option Nat) (h : ∀ p ∈ port, p < 2 ^ 16) (old : Relay) :
    ∃ b, (Relay.addr none none port).serialize = .ok b ∧
      Relay.deserialize old b = .throw .runtimeError := by
  have hr : RelayRep (.addr none none port) := ⟨by simp, by simp, h⟩
  have := relay_bytes old _ hr []
  rw [relay_deser old _ hr] at this
  refine ⟨_, rfl, ?_⟩
  simpa [Relay.serialize, Relay.ser] using this

/-- What is read from the ledger's own format: host names are read in full, of an address
relay only port and IPv4 address are (the IPv6 element is never looked at). -/
theorem C45_reads_ledger_relays (old : Relay) (port : Option Nat) (hp : ∀ p ∈ port, p < 2 ^ 16)
    (v4 v6 : Option Bytes) (h4 : ∀ b ∈ v4, b.length = 4) (h6 : ∀ b ∈ v6, b.length = 16)
    (dns : Bytes) (hd : dns.length ≤ 64) (rest : Bytes) :
    Relay.deserialize old (enc (.array [.uint 0, portItem port,
        (v4.elim .null .bstr), (v6.elim .null .bstr)]) ++ rest) = .ok (.addr v4 none port) ∧
    Relay.deserialize old (enc (.array [.uint 1, portItem port, .tstr dns]) ++ rest) = .ok (.name dns port) ∧
    Relay.deserialize old (enc (.array [.uint 2, .tstr dns]) ++ rest) = .ok (.multi dns) := by
  have wp := port_wf port hp
  have wd : WF (.tstr dns) := WF.tstr (by omega)
  have w4 : WF (v4.elim .null .bstr) := by
    cases v4 with
    | none => exact WF.null
    | some b => exact WF.bstr (by have := h4 b rfl; omega)
  have w6 : WF (v6.elim .null .bstr) := by
    cases v6 with
    | none => exact WF.null
    | some b => exact WF.bstr (by have := h6 b rfl; omega)
  refine ⟨?_, ?_, ?_⟩
  · refine (deserializeArray_enc _ _ _ (WF.array (by simp) ?_)).trans ?_
    · intro i hi
      simp only [List.mem_cons, List.not_mem_nil, or_false] at hi
      rcases hi with rfl | rfl | rfl | rfl
      · exact WF.uint (by omega)
      · exact wp
      · exact w4
      · exact w6
    · cases v4 with
      | none => simp [Relay.deser, asUint, untag, ipOf, asBstr, portOf_item port hp]
      | some b => simp [Relay.deser, asUint, untag, ipOf, asBstr, portOf_item port hp, h4 b rfl]
  · refine (deserializeArray_enc _ _ _ (WF.array (by simp) ?_)).trans ?_
    · intro i hi
      simp only [List.mem_cons, List.not_mem_nil, or_false] at hi
      rcases hi with rfl | rfl | rfl
      · exact WF.uint (by omega)
      · exact wp
      · exact wd
    · simp [Relay.deser, asUint, untag, asTstr, portOf_item port hp]
  · refine (deserializeArray_enc _ _ _ (WF.array (by simp) ?_)).trans ?_
    · intro i hi
      simp only [List.mem_cons, List.not_mem_nil, or_false] at hi
      rcases hi with rfl | rfl
      · exact WF.uint (by omega)
      · exact wd
    · simp [Relay.deser, asUint, untag, asTstr]

example : RelayRep (.addr (some [1, 2, 3, 4]) none (some 3001)) ∧
    RelayPreserved (.addr (some [1, 2, 3, 4]) none (some 3001)) := by
  simp [RelayRep, RelayPreserved]
example : (Relay.addr (some [1, 2, 3, 4]) none (some 3001)).serialize =
    .ok [0x84, 0x00, 0x19, 0x0b, 0xb9, 0x44, 1, 2, 3, 4, 0xf6] := by decide +kernel
example : (Relay.name (ascii "a.b") none).serialize = .ok [0x83, 0x01, 0xf6, 0x63, 97, 46, 98] := by
  decide +kernel

/-! ## C46: native scripts -/

mutual
theorem scriptData_ser : ∀ s : Script, ScriptRep s → ScriptPreserved s → scriptData s.ser = .ok s
  | .empty, _, h => by cases h
  | .pubkey h, hr, _ => by
    cases hr with | pubkey hl =>
    simp [Script.ser, scriptData, asUint, untag, pubkeyDeser, asBstr, reqLen, hl]
  | .all l, hr, hp => by
    cases hr with | all _ hr =>
    cases hp with | all hp =>
    have := scriptItems_ser l hr hp
    simp [Script.ser, scriptData, asUint, untag, scriptList, this, Out.bind]
  | .any l, hr, hp => by
    cases hr with | any _ hr =>
    cases hp with | any hp =>
    have := scriptItems_ser l hr hp
    simp [Script.ser, scriptData, asUint, untag, scriptList, this, Out.bind]
  | .nOfK n l, _, h => by cases h
theorem scriptItems_ser : ∀ l : List Script, (∀ s ∈ l, ScriptRep s) → (∀ s ∈ l, ScriptPreserved s) →
    scriptItems (serScripts l) = .ok l
  | [], _, _ => rfl
  | s :: l, hr, hp => by
    have h1 := scriptData_ser s (hr s (by simp)) (hp s (by simp))
    have h2 := scriptItems_ser l (fun s hs => hr s (by simp [hs])) (fun s hs => hp s (by simp [hs]))
    simp [serScripts, scriptItems, scriptItem, h1, h2, Out.bind]
end

mutual
theorem scriptData_throws : ∀ s : Script, ScriptRep s → ¬ ScriptPreserved s →
    ∃ e, scriptData s.ser = .throw e ∧ (e = .invalidArgument ∨ e = .runtimeError)
  | .empty, _, _ => ⟨.invalidArgument, by simp [Script.ser, scriptData], Or.inl rfl⟩
  | .pubkey h, _, hp => absurd .pubkey hp
  | .all l, hr, hp => by
    cases hr with | all _ hr =>
    obtain ⟨e, he, he'⟩ := scriptItems_throws l hr (fun h => hp (.all h))
    exact ⟨e, by simp [Script.ser, scriptData, asUint, untag, scriptList, he, Out.bind], he'⟩
  | .any l, hr, hp => by
    cases hr with | any _ hr =>
    obtain ⟨e, he, he'⟩ := scriptItems_throws l hr (fun h => hp (.any h))
    exact ⟨e, by simp [Script.ser, scriptData, asUint, untag, scriptList, he, Out.bind], he'⟩
  | .nOfK n l, _, _ => ⟨.runtimeError, by simp [Script.ser, scriptData, asUint, untag, nOfKDeser], Or.inr rfl⟩
theorem scriptItems_throws : ∀ l : List Script, (∀ s ∈ l, ScriptRep s) → ¬ (∀ s ∈ l, ScriptPreserved s) →
    ∃ e, scriptItems (serScripts l) = .throw e ∧ (e = .invalidArgument ∨ e = .runtimeError)
  | [], _, h => absurd (by simp) h
  | s :: l, hr, h => by
    by_cases hs : ScriptPreserved s
    · have h1 := scriptData_ser s (hr s (by simp)) hs
      obtain ⟨e, he, he'⟩ := scriptItems_throws l (fun s hs => hr s (by simp [hs])) (fun hl => h (by
        intro t ht
        rcases List.mem_cons.mp ht with rfl | ht
        · exact hs
        · exact hl t ht))
      exact ⟨e, by simp [serScripts, scriptItems, scriptItem, h1, he, Out.bind], he'⟩
    · obtain ⟨e, he, he'⟩ := scriptData_throws s (hr s (by simp)) hs
      exact ⟨e, by simp [serScripts, scriptItems, scriptItem, he, Out.bind], he'⟩
end

theorem script_deser_eq (old s : Script) : Script.deser old s.ser = scriptData s.ser := by
  cases s with
  | empty => simp [Script.ser, Script.deser]
  | pubkey h => simp [Script.ser, Script.deser, asUint, untag]
  | all l => simp [Script.ser, Script.deser, asUint, untag]
  | any l => simp [Script.ser, Script.deser, asUint, untag]
  | nOfK n l => simp [Script.ser, Script.deser, asUint, untag]

theorem script_bytes (old s : Script) (h : ScriptRep s) (rest : Bytes) :
    Script.deserialize old (s.serialize ++ rest) = scriptData s.ser := by
  unfold Script.deserialize Script.serialize
  rw [deserializeArray_enc _ _ _ (script_wf s h), script_deser_eq]

/-- **C46**, exact: a script of any depth comes back unchanged if and only if it contains no
n-of-k node and no empty node. -/
theorem C46_roundtrip_iff_partial (s : Script) (h : ScriptRep s) :
    (∀ old rest, Script.deserialize old (s.serialize ++ rest) = .ok s) ↔ ScriptPreserved s := by
  constructor
  · intro hd
    by_cases hp : ScriptPreserved s
    · exact hp
    · obtain ⟨e, he, _⟩ := scriptData_throws s h hp
      have := hd .empty []
      rw [script_bytes _ _ h, he] at this
      cases this
  · intro hp old rest
    rw [script_bytes _ _ h, scriptData_ser s h hp]

/-- **C46** fails for every script with an n-of-k or empty node: its own serialization is
rejected with an exception (never misread, never undefined). -/
theorem C46_otherwise_throws (s : Script) (h : ScriptRep s) (hp : ¬ ScriptPreserved s) (old : Script)
    (rest : Bytes) : ∃ e, Script.deserialize old (s.serialize ++ rest) = .throw e ∧
      (e = .invalidArgument ∨ e = .runtimeError) := by
  rw [script_bytes _ _ h]
  exact scriptData_throws s h hp

/-- In particular no n-of-k script can be read back. -/
theorem C46_nofk_throws (n : Nat) (l : List Script) (h : ScriptRep (.nOfK n l)) (old : Script) (rest : Bytes) :
    Script.deserialize old ((Script.nOfK n l).serialize ++ rest) = .throw .runtimeError := by
  rw [script_bytes _ _ h]
  simp [Script.ser, scriptData, asUint, untag, nOfKDeser]

example : ScriptRep (.all [.pubkey (List.replicate 28 7), .any [.pubkey (List.replicate 28 9)]]) ∧
    ScriptPreserved (.all [.pubkey (List.replicate 28 7), .any [.pubkey (List.replicate 28 9)]]) := by
  refine ⟨.all (by simp [Fits]) ?_, .all ?_⟩
  · intro s hs
    simp only [List.mem_cons, List.not_mem_nil, or_false] at hs
    rcases hs with rfl | rfl
    · exact .pubkey (by simp)
    · exact .any (by simp [Fits]) (by simp; exact .pubkey (by simp))
  · intro s hs
    simp only [List.mem_cons, List.not_mem_nil, or_false] at hs
    rcases hs with rfl | rfl
    · exact .pubkey
    · exact .any (by simp; exact .pubkey)
example : (Script.nOfK 2 [.pubkey (List.replicate 28 7)]).serialize =
    [0x83, 3, 2, 0x81, 0x82, 0, 0x58, 28] ++ List.replicate 28 7 := by decide +kernel

end Cardano.Ledger
