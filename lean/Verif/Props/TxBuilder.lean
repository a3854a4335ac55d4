import Verif.Props.TxFee
import Verif.Props.Bip32
import Verif.Spec.TxHistory
import Verif.Lemmas.Order

/-! # C48–C51: histories of builder calls -/

namespace Cardano.TxBuilder

open Cardano Cardano.Ledger Cardano.Cbor Cardano.Spec.TxBuilder Cardano.Spec.Ledger

/-! ## What each call changes -/

theorem balanceLoop_frame (k n : Nat) (force : Bool) : ∀ r first b b' o,
    balanceLoop k n force r first b = some (b', o) →
      b' = b ∨ ∃ outs fee, b' = setBody (clearWitnessSet b) fun t => { t with outputs := outs, fee := fee } := by
  intro r
  induction r with
  | zero =>
    intro first b b' o h
    simp only [balanceLoop, Option.some.injEq, Prod.mk.injEq] at h
    exact Or.inl h.1.symm
  | succ r ih =>
    intro first b b' o h
    right
    have up : ∀ b1 o1, updateFee k b n = some (b1, o1) →
        b1 = setBody (clearWitnessSet b) fun t => { t with outputs := t.outputs, fee := b1.tx.body.fee } := by
      intro b1 o1 hu
      obtain ⟨f, rfl⟩ := updateFee_frame k b b1 n _ hu
      rfl
    rw [balanceLoop] at h
    split at h
    · cases h
    · rename_i b1 e hu
      injection h with h; injection h with h1 h2; subst h1
      exact ⟨_, _, up _ _ hu⟩
    · rename_i b1 hu
      injection h with h; injection h with h1 h2; subst h1
      exact ⟨_, _, up _ _ hu⟩
    · rename_i b1 _ hu
      have hb1 := up _ _ hu
      split at h
      · cases h
      · rename_i b2 o hst
        injection h with h; injection h with h1 h2
        obtain ⟨outs, fee, this⟩ := balanceStep_frame _ _ _ _ _ _ hst
        refine ⟨outs, fee, ?_⟩
        rw [← h1]
        refine Eq.trans this ?_
        rw [hb1]; rfl
      · rename_i b2 hst
        obtain ⟨outs, fee, this⟩ := balanceStep_frame _ _ _ _ _ _ hst
        have e2 : b2 = setBody (clearWitnessSet b) fun t => { t with outputs := outs, fee := fee } := by
          refine Eq.trans this ?_
          rw [hb1]; rfl
        rcases ih _ _ _ _ h with rfl | ⟨outs', fee', h'⟩
        · exact ⟨_, _, e2⟩
        · refine ⟨outs', fee', ?_⟩
          rw [h', e2]; rfl

/-- `balance` changes the outputs and the fee and removes the key witnesses; nothing else. -/
theorem balance_frame (k : Nat) (b b' : Builder) (n : Nat) (force : Bool) (o : Out Unit)
    (h : balance k b n force = some (b', o)) :
    ∃ outs fee, b' = setBody (clearWitnessSet b) fun t => { t with outputs := outs, fee := fee } := by
  unfold balance at h
  rw [balanceLoop] at h
  have up : ∀ b1 o1, updateFee k b n = some (b1, o1) →
      b1 = setBody (clearWitnessSet b) fun t => { t with outputs := t.outputs, fee := b1.tx.body.fee } := by
    intro b1 o1 hu
    obtain ⟨f, rfl⟩ := updateFee_frame k b b1 n _ hu
    rfl
  split at h
  · cases h
  · rename_i b1 e hu
    injection h with h; injection h with h1 h2; subst h1
    exact ⟨_, _, up _ _ hu⟩
  · rename_i b1 hu
    injection h with h; injection h with h1 h2; subst h1
    exact ⟨_, _, up _ _ hu⟩
  · rename_i b1 _ hu
    have hb1 := up _ _ hu
    split at h
    · cases h
    · rename_i b2 o hst
      injection h with h; injection h with h1 h2
      obtain ⟨outs, fee, this⟩ := balanceStep_frame _ _ _ _ _ _ hst
      refine ⟨outs, fee, ?_⟩
      rw [← h1]
      refine Eq.trans this ?_
      rw [hb1]; rfl
    · rename_i b2 hst
      obtain ⟨outs, fee, this⟩ := balanceStep_frame _ _ _ _ _ _ hst
      have e2 : b2 = setBody (clearWitnessSet b) fun t => { t with outputs := outs, fee := fee } := by
        refine Eq.trans this ?_
        rw [hb1]; rfl
      rcases balanceLoop_frame _ _ _ _ _ _ _ _ h with rfl | ⟨outs', fee', h'⟩
      · exact ⟨_, _, e2⟩
      · refine ⟨outs', fee', ?_⟩
        rw [h', e2]; rfl

/-- Witnesses after `sign`. -/
theorem sign_cases (E : Env) (b : Builder) (k : SKey) :
    (∃ key sig, witnessFor E b k = .ok (key, sig) ∧
      sign E b k = ({ b with tx := { b.tx with wits := { b.tx.wits with vkeys := replaceWitness b.tx.wits.vkeys key sig } } }, .ok ()))
    ∨ (sign E b k).1 = b := by
  unfold sign
  split
  · rename_i key sig h
    exact Or.inl ⟨key, sig, h, rfl⟩
  · exact Or.inr rfl
  · exact Or.inr rfl

/-! ## C50 -/

/-- No two key witnesses have the same verification key. -/
def OnePerKey (b : Builder) : Prop := (b.tx.wits.vkeys.map (·.vkey)).Nodup

theorem step_vkeys (E : Env) (k : Nat) (b b' : Builder) (op : Op) (o : Out Unit) (h : step E k b op = some (b', o)) :
    b'.tx.wits.vkeys = [] ∨ b'.tx.wits.vkeys = b.tx.wits.vkeys ∨
      ∃ key sig, b'.tx.wits.vkeys = replaceWitness b.tx.wits.vkeys key sig := by
  cases op <;> simp only [step, Option.some.injEq, Prod.mk.injEq] at h
  case addInput u =>
    unfold addInput at h
    split at h
    · simp only [Prod.mk.injEq] at h; rw [← h.1]; exact Or.inr (Or.inl rfl)
    · simp only [Prod.mk.injEq] at h; rw [← h.1]; exact Or.inl rfl
  case updateFee n =>
    obtain ⟨f, rfl⟩ := updateFee_frame k b b' n _ h
    exact Or.inl rfl
  case balance n force =>
    obtain ⟨outs, fee, rfl⟩ := balance_frame k b b' n force _ h
    exact Or.inl rfl
  case sign key =>
    rcases sign_cases E b key with ⟨key, sig, -, hs⟩ | hs
    · rw [hs] at h; simp only [Prod.mk.injEq] at h; rw [← h.1]
      exact Or.inr (Or.inr ⟨key, sig, rfl⟩)
    · have : b' = b := by rw [← hs, h]
      rw [this]; exact Or.inr (Or.inl rfl)
  all_goals (rw [← h.1]; first | exact Or.inl rfl | exact Or.inr (Or.inl rfl))

theorem replace_onePerKey (ws : List VkeyWitness) (key sig : Bytes) (h : (ws.map (·.vkey)).Nodup) :
    ((replaceWitness ws key sig).map (·.vkey)).Nodup := by
  unfold replaceWitness
  rw [List.map_append, List.nodup_append]
  refine ⟨?_, by simp, ?_⟩
  · exact List.Nodup.sublist (List.Sublist.map _ List.filter_sublist) h
  · intro a ha b hb
    simp only [List.map_cons, List.map_nil, List.mem_singleton] at hb
    subst hb
    obtain ⟨w, hw, rfl⟩ := List.mem_map.mp ha
    have := (List.mem_filter.mp hw).2
    simpa using this

/-- **C50**: after any history of builder calls — including calls that threw — no two key
witnesses have the same verification key. -/
theorem C50_one_witness_per_key (E : Env) (k : Nat) (b b' : Builder) (ops : List Op)
    (h0 : (b.tx.wits.vkeys.map (·.vkey)).Nodup) (h : run E k b ops = some b') :
    (b'.tx.wits.vkeys.map (·.vkey)).Nodup := by
  induction ops generalizing b with
  | nil => simp only [run, Option.some.injEq] at h; rw [← h]; exact h0
  | cons op ops ih =>
    rw [run] at h
    split at h
    · cases h
    · cases h
    · rename_i b1 o _ hs
      refine ih b1 ?_ h
      rcases step_vkeys E k b b1 op o hs with e | e | ⟨key, sig, e⟩
      · rw [e]; simp
      · rw [e]; exact h0
      · rw [e]; exact replace_onePerKey _ _ _ h0

/-- **C50** for a new builder. -/
theorem C50_fresh (E : Env) (k : Nat) (b : Builder) (ops : List Op) (h : run E k {} ops = some b) :
    (b.tx.wits.vkeys.map (·.vkey)).Nodup :=
  C50_one_witness_per_key E k {} b ops (by simp) h

/-- **C50**: signing keeps the other keys' witnesses, and the key's own witness is the new one
— signing twice with one key does not add a second witness. -/
theorem C50_sign_replaces (E : Env) (b b' : Builder) (k : SKey) (h : sign E b k = (b', .ok ())) :
    ∃ key sig, k.pub E = .ok key ∧ makeWitness E b k = .ok sig ∧
      (∀ w, w ∈ b'.tx.wits.vkeys ↔ (w ∈ b.tx.wits.vkeys ∧ w.vkey ≠ key) ∨ w = ⟨key, sig⟩) ∧
      b'.tx.body = b.tx.body := by
  unfold sign at h
  split at h
  · rename_i key sig hw
    simp only [Prod.mk.injEq, and_true] at h
    unfold witnessFor at hw
    obtain ⟨s, h1, h2⟩ := Out.bind_eq_ok.mp hw
    obtain ⟨p, h3, h4⟩ := Out.bind_eq_ok.mp h2
    injection h4 with h4; injection h4 with h5 h6
    subst h5; subst h6
    refine ⟨p, s, h3, h1, ?_, by rw [← h]⟩
    intro w
    rw [← h]
    simp [replaceWitness]
  · simp at h
  · simp at h

/-! ## C49 -/

/-- The witness is a signature, by the key it names, of the id of the builder's body; the key
has the property `K`. -/
def SignsWF (E : Env) (K : SKey → Prop) (b : Builder) (w : VkeyWitness) : Prop :=
  ∃ (k : SKey) (id : Bytes), K k ∧ getID E b = .ok id ∧ k.pub E = .ok w.vkey ∧ k.sign E id = .ok w.sig

theorem signs_verifies (E : Env) (K : SKey → Prop) (b : Builder) (w : VkeyWitness) (h : SignsWF E K b w)
    (hK : ∀ k, K k → KeyWF k) (hz : ∀ seed id, K (.ed seed) → getID E b = .ok id → ¬ E.S.zeroNonce seed id) :
    ∃ id, getID E b = .ok id ∧ Verifies E id w := by
  obtain ⟨k, id, hk, h1, h2, h3⟩ := h
  refine ⟨id, h1, ?_⟩
  cases k with
  | ed seed =>
    left
    injection h2 with h2; injection h3 with h3
    rw [← h2, ← h3]
    exact E.S.verify_sign seed id (hK _ hk) (hz _ _ hk h1)
  | bip k =>
    right
    obtain ⟨p, hp, -, hv⟩ := Bip32.C33_sign_verifies E.C E.P k id w.sig h3
    simp only [SKey.pub, hp, Out.ok_bind, Out.ok.injEq] at h2
    rw [← h2]; exact hv

theorem signs_body (E : Env) (K : SKey → Prop) (b b' : Builder) (w : VkeyWitness) (e : b'.tx.body = b.tx.body)
    (h : SignsWF E K b w) : SignsWF E K b' w := by
  obtain ⟨k, id, hk, h1, h2⟩ := h
  refine ⟨k, id, hk, ?_, h2⟩
  unfold getID at *; rw [e]; exact h1

theorem clears_vkeys (E : Env) (k : Nat) (b b' : Builder) (op : Op) (o : Out Unit) (hc : clears op = true)
    (h : step E k b op = some (b', o)) : b'.tx.wits.vkeys = [] := by
  cases op <;> simp only [step, Option.some.injEq, Prod.mk.injEq] at h <;> simp only [clears, Bool.false_eq_true] at hc
  case addInput u =>
    unfold addInput at h
    rw [if_neg (by simpa using hc)] at h
    simp only [Prod.mk.injEq] at h; rw [← h.1]; rfl
  case updateFee n =>
    obtain ⟨f, rfl⟩ := updateFee_frame k b b' n _ h; rfl
  case balance n force =>
    obtain ⟨outs, fee, rfl⟩ := balance_frame k b b' n force _ h; rfl
  all_goals (rw [← h.1]; rfl)

theorem other_body (E : Env) (k : Nat) (b b' : Builder) (op : Op) (o : Out Unit) (hc : clears op = false)
    (hi : isCert op = false) (h : step E k b op = some (b', o)) : b'.tx.body = b.tx.body := by
  cases op <;> simp only [step, Option.some.injEq, Prod.mk.injEq] at h <;>
    simp only [clears, isCert, Bool.true_eq_false] at hc hi
  case addInput u =>
    unfold addInput at h
    rw [if_pos (by simpa using hc)] at h
    simp only [Prod.mk.injEq] at h; rw [← h.1]
  case sign key =>
    rcases sign_cases E b key with ⟨key, sig, -, hs⟩ | hs
    · rw [hs] at h; simp only [Prod.mk.injEq] at h; rw [← h.1]
    · have : b' = b := by rw [← hs, h]
      rw [this]
  all_goals rw [← h.1]

theorem step_signs (E : Env) (K : SKey → Prop) (k : Nat) (b b' : Builder) (op : Op) (o : Out Unit)
    (h : step E k b op = some (b', o)) (hk : ∀ key, op = .sign key → K key) (hi : isCert op = false)
    (h0 : ∀ w ∈ b.tx.wits.vkeys, SignsWF E K b w) : ∀ w ∈ b'.tx.wits.vkeys, SignsWF E K b' w := by
  cases hc : clears op with
  | true => rw [clears_vkeys E k b b' op o hc h]; simp
  | false =>
    have eb := other_body E k b b' op o hc hi h
    intro w hw
    rcases step_vkeys E k b b' op o h with e | e | ⟨key, sig, e⟩
    · rw [e] at hw; simp at hw
    · rw [e] at hw; exact signs_body E K b b' w eb (h0 w hw)
    · cases op with
      | sign key' =>
        simp only [step, Option.some.injEq] at h
        cases o with
        | ok u =>
          obtain ⟨p, s, h1, h2, h3, h4⟩ := C50_sign_replaces E b b' key' h
          rcases (h3 w).mp hw with ⟨hw, -⟩ | rfl
          · exact signs_body E K b b' w eb (h0 w hw)
          · obtain ⟨id, g1, g2⟩ := Out.bind_eq_ok.mp h2
            exact signs_body E K b b' _ eb ⟨key', id, hk _ rfl, g1, h1, g2⟩
        | throw x =>
          rcases sign_cases E b key' with ⟨_, _, -, hs⟩ | hs
          · rw [hs] at h; simp at h
          · have : b' = b := by rw [← hs, h]
            rw [this] at hw ⊢; exact h0 w hw
        | ub =>
          rcases sign_cases E b key' with ⟨_, _, -, hs⟩ | hs
          · rw [hs] at h; simp at h
          · have : b' = b := by rw [← hs, h]
            rw [this] at hw ⊢; exact h0 w hw
      | addInput u =>
        simp only [step, Option.some.injEq] at h
        unfold addInput at h
        rw [if_pos (by simpa [clears] using hc)] at h
        simp only [Prod.mk.injEq] at h
        rw [← h.1] at hw ⊢; exact h0 w hw
      | _ =>
        simp only [step, Option.some.injEq, Prod.mk.injEq, clears, isCert, Bool.true_eq_false] at h hc hi
        try (rw [← h.1] at hw ⊢; exact signs_body E K b _ w rfl (h0 w hw))

theorem step_vkeys_nil (E : Env) (k : Nat) (b b' : Builder) (op : Op) (o : Out Unit) (h : step E k b op = some (b', o))
    (hs : ∀ key, op ≠ .sign key) (hv : b.tx.wits.vkeys = []) : b'.tx.wits.vkeys = [] := by
  cases hc : clears op with
  | true => exact clears_vkeys E k b b' op o hc h
  | false =>
    cases op <;> simp only [step, Option.some.injEq, Prod.mk.injEq] at h <;>
      simp only [clears, Bool.true_eq_false] at hc
    case addInput u =>
      unfold addInput at h
      rw [if_pos (by simpa using hc)] at h
      simp only [Prod.mk.injEq] at h; rw [← h.1]; exact hv
    case sign key => exact absurd rfl (hs key)
    all_goals (rw [← h.1]; exact hv)

/-- **C49** (for histories that add no certificate to a signed transaction): after any such
history of builder calls on a new builder, every key witness is a valid signature of the id
`getID` reports, which is the hash of the bytes of the *current* body. -/
theorem C49_witnesses_valid_partial (E : Env) (k : Nat) (b : Builder) (ops : List Op)
    (h : run E k {} ops = some b) (hk : ∀ key, Op.sign key ∈ ops → KeyWF key) (hc : CertsBeforeSigning false ops)
    (hz : ∀ seed id, Op.sign (.ed seed) ∈ ops → getID E b = .ok id → ¬ E.S.zeroNonce seed id) :
    ∀ w ∈ b.tx.wits.vkeys, ∃ body, b.tx.body.serialize = .ok body ∧ getID E b = .ok (E.S.hash body) ∧
      Verifies E (E.S.hash body) w := by
  have key : ∀ (K : SKey → Prop) (ops : List Op) (s : Bool) (b b' : Builder), run E k b ops = some b' →
      (∀ key, Op.sign key ∈ ops → K key) → CertsBeforeSigning s ops →
      (∀ w ∈ b.tx.wits.vkeys, SignsWF E K b w) → (s = false → b.tx.wits.vkeys = []) →
      ∀ w ∈ b'.tx.wits.vkeys, SignsWF E K b' w := by
    intro K ops
    induction ops with
    | nil =>
      intro s b b' h _ _ h0 _
      simp only [run, Option.some.injEq] at h
      rw [← h]; exact h0
    | cons op ops ih =>
      intro s b b' h hk hc h0 hs
      rw [run] at h
      split at h
      · cases h
      · cases h
      · rename_i b1 o _ hst
        have hk1 : ∀ key, op = .sign key → K key := fun key e => hk key (by simp [e])
        have hk2 : ∀ key, Op.sign key ∈ ops → K key := fun key e => hk key (by simp [e])
        have main : (∀ w ∈ b1.tx.wits.vkeys, SignsWF E K b1 w) := by
          cases hi : isCert op with
          | false => exact step_signs E K k b b1 op o hst hk1 hi h0
          | true =>
            have hsf : s = false := by
              cases op <;> simp only [isCert, Bool.false_eq_true] at hi <;> exact hc.1 rfl
            have hv := hs hsf
            have hn := step_vkeys_nil E k b b1 op o hst (by intro key e; subst e; simp [isCert] at hi) hv
            rw [hn]; simp
        cases op with
        | sign key =>
          exact ih true b1 b' h hk2 hc main (by simp)
        | _ =>
          refine ih _ b1 b' h hk2 hc.2 main ?_
          intro he
          rcases Bool.and_eq_false_iff.mp he with he | he
          · exact step_vkeys_nil E k b b1 _ o hst (by intro key; simp) (hs he)
          · exact clears_vkeys E k b b1 _ o (by simpa using he) hst
  intro w hw
  obtain ⟨id, h1, h2⟩ := signs_verifies E (fun key => KeyWF key ∧ Op.sign key ∈ ops) b w
    (key _ ops false {} b h (fun key e => ⟨hk key e, e⟩) hc (by simp) (by simp) w hw) (fun _ h => h.1)
    (fun seed id h1 h2 => hz seed id h1.2 h2)
  obtain ⟨body, g1, g2⟩ := Out.bind_eq_ok.mp h1
  obtain rfl := Out.ok.inj g2
  exact ⟨body, g1, h1, h2⟩

theorem mapOut_append {α β} (f : α → Out β) (l m : List α) :
    mapOut f (l ++ m) = (do let a ← mapOut f l; let b ← mapOut f m; .ok (a ++ b)) := by
  induction l with
  | nil => cases h : mapOut f m <;> simp [mapOut, h]
  | cons x l ih =>
    simp only [List.cons_append, mapOut, ih]
    cases f x <;> cases mapOut f l <;> cases mapOut f m <;> simp

/-- **C49** fails for certificates: every certificate call keeps the witnesses of a signed
transaction although it makes the body longer, so that they sign the hash of bytes which are
no longer the body's. -/
theorem C49_certificate_keeps_stale_witnesses (b : Builder) (c : Certificate) (d : Nat) (l : List Item) (s : Bytes)
    (hs : b.tx.body.serialize = .ok s) (hc : c.ser = .ok l) :
    (addCert b c d).tx.wits.vkeys = b.tx.wits.vkeys ∧
      ∃ s', (addCert b c d).tx.body.serialize = .ok s' ∧ s.length < s'.length := by
  refine ⟨rfl, ?_⟩
  obtain ⟨items, h1, h2⟩ := Out.bind_eq_ok.mp hs
  unfold TxBody.ser at h1
  obtain ⟨cs, h3, h4⟩ := Out.bind_eq_ok.mp h1
  injection h4 with h4
  injection h2 with h2
  have hnew : ∃ cs', certsEntry (b.tx.body.certificates ++ [c]) = .ok cs' ∧ cs.length ≤ cs'.length ∧
      (encList cs).length < (encList cs').length := by
    unfold certsEntry at h3 ⊢
    rw [if_neg (by simp)]
    split at h3
    · rename_i he
      injection h3 with h3
      rw [he, ← h3]
      simp only [List.nil_append, mapOut, hc, Out.ok_bind]
      refine ⟨_, rfl, by simp, ?_⟩
      simp only [encList, List.length_append, List.length_nil, enc, encHeader_length]
      have := uintSize_pos 4
      omega
    · obtain ⟨ls, g1, g2⟩ := Out.bind_eq_ok.mp h3
      injection g2 with g2
      rw [mapOut_append, g1]
      simp only [mapOut, hc, Out.ok_bind]
      refine ⟨_, rfl, by rw [← g2]; simp, ?_⟩
      rw [← g2]
      simp only [encList, enc, List.map_append, List.map_cons, List.map_nil, encList_append, List.length_append,
        List.length_nil, encHeader_length, List.length_map, List.length_cons]
      have h5 := uintSize_mono (show ls.length ≤ ls.length + (0 + 1) by omega)
      have := uintSize_pos l.length
      omega
  obtain ⟨cs', n1, n2, n3⟩ := hnew
  have len : ∀ (A cs W M : List Item), (encMap (A ++ cs ++ W ++ M)).length =
      uintSize ((A.length + cs.length + W.length + M.length) / 2) + (encList A).length + (encList cs).length
        + (encList W).length + (encList M).length := by
    intro A cs W M
    simp only [encMap, enc, encList_append, List.length_append, encHeader_length]
    omega
  have ser' : (addCert b c d).tx.body.serialize = .ok (encMap ([Item.uint 0, .array (b.tx.body.inputs.map fun i => .array i.ser),
        Item.uint 1, .array (b.tx.body.outputs.map fun o => .array o.ser),
        .uint 2, .uint b.tx.body.fee, .uint 3, .uint b.tx.body.ttl] ++ cs' ++
          withdrawalsEntry b.tx.body.withdrawals ++ metadataEntry b.tx.body.metadataHash)) := by
    unfold TxBody.serialize TxBody.ser addCert setBody
    dsimp only
    rw [n1, Out.ok_bind, Out.ok_bind]
  refine ⟨_, ser', ?_⟩
  rw [← h2, ← h4, len, len]
  refine Nat.add_lt_add_right (Nat.add_lt_add_right (Nat.add_lt_add_of_le_of_lt (Nat.add_le_add_right (uintSize_mono ?_) _) n3) _) _
  apply Nat.div_le_div_right; omega

/-- Concretely: sign, then retire a pool. -/
example (E : Env) (seed : Bytes) :
    ∃ b s s', run E 12 {} [.setFee 7, .sign (.ed seed), .poolRetirement (List.replicate 28 1) 9] = some b ∧
      b.tx.wits.vkeys = [⟨E.S.pub seed, E.S.sign seed (E.S.hash s)⟩] ∧
      getID E b = .ok (E.S.hash s') ∧ s ≠ s' := by
  have hb : ({ fee := 7, certificates := [.poolRetire (List.replicate 28 1) 9] } : TxBody).serialize = .ok
      ([0xA5, 0, 0x80, 1, 0x80, 2, 7, 3, 0, 4, 0x81, 0x83, 4, 0x58, 0x1c] ++ List.replicate 28 1 ++ [9]) := by
    decide +kernel
  have he : ∀ b : Builder, b.tx.body = { fee := 7, certificates := [.poolRetire (List.replicate 28 1) 9] } →
      getID E b = .ok (E.S.hash
        ([0xA5, 0, 0x80, 1, 0x80, 2, 7, 3, 0, 4, 0x81, 0x83, 4, 0x58, 0x1c] ++ List.replicate 28 1 ++ [9])) := by
    intro b h
    rw [getID, h, hb]; rfl
  refine ⟨_, [0xA4, 0, 0x80, 1, 0x80, 2, 7, 3, 0], _, rfl, rfl, he _ rfl, ?_⟩
  decide +kernel

/-! ## C48 and C51: what a history builds -/

theorem i64_u64 (x : Int) (h1 : -2 ^ 63 ≤ x) (h2 : x < 2 ^ 63) : i64 (u64 x) = x := by
  unfold i64 u64
  have : (x % 2 ^ 64).toNat % 2 ^ 64 = (x % 2 ^ 64).toNat := Nat.mod_eq_of_lt (by omega)
  rw [this]
  split <;> omega

theorem u64_i64 (n : Nat) : u64 (i64 n) = n % 2 ^ 64 := by
  unfold i64 u64
  split <;> omega

theorem i64_mod (n m : Nat) (h : n % 2 ^ 64 = m % 2 ^ 64) : i64 n = i64 m := by
  unfold i64; rw [h]

theorem i64_range (n : Nat) : -2 ^ 63 ≤ i64 n ∧ i64 n < 2 ^ 63 := by
  unfold i64
  split <;> omega

theorem addMixed_i64 (n m : Nat) : addMixed (i64 n) m = i64 (n + m) := by
  unfold addMixed
  rw [u64_i64]
  exact i64_mod _ _ (by omega)

/-- Everything but the outputs and the fee, after any history. -/
theorem run_facts (E : Env) (k : Nat) (ops : List Op) : ∀ b b', run E k b ops = some b' →
    b'.tx.body.inputs = ((inputsOf ops).map spends).foldl (fun s i => setInsert TxIn.lt i s) b.tx.body.inputs ∧
    b'.tx.body.withdrawals = (withdrawalsOf ops).foldl (fun m e => mapAssign bytesLt e.1 e.2 m) b.tx.body.withdrawals ∧
    b'.tx.body.certificates = b.tx.body.certificates ++ (certsOf ops).map (·.1) ∧
    b'.tx.body.ttl = (ttlOf ops).getD b.tx.body.ttl ∧
    b'.tx.body.metadataHash = b.tx.body.metadataHash ∧ b'.tx.body.update = b.tx.body.update ∧
    (∀ n, b.inputTotal = i64 n → b'.inputTotal = i64 (n + addedSum ops)) ∧
    (∀ n, b.depositTotal = i64 n → b'.depositTotal = i64 (n + depositSum ops)) ∧
    (NoComputedFee ops → b'.tx.body.outputs = b.tx.body.outputs ++ outputsOf ops ∧
      b'.tx.body.fee = (feeOf ops).getD b.tx.body.fee) := by
  induction ops with
  | nil =>
    intro b b' h
    simp only [run, Option.some.injEq] at h
    subst h
    simp [inputsOf, withdrawalsOf, certsOf, ttlOf, outputsOf, feeOf, addedSum, depositSum]
  | cons op ops ih =>
    intro b b' h
    rw [run] at h
    split at h
    · cases h
    · cases h
    · rename_i b1 o _ hst
      obtain ⟨g1, g2, g3, g4, g5, g6, g7, g8, g9⟩ := ih b1 b' h
      have hno : NoComputedFee (op :: ops) → NoComputedFee ops := fun hn x hx => hn x (by simp [hx])
      cases op <;> simp only [step, Option.some.injEq, Prod.mk.injEq] at hst
      case addInput u =>
        unfold addInput at hst
        by_cases hu : u.id.length < 32
        · rw [if_pos hu] at hst
          simp only [Prod.mk.injEq] at hst
          obtain ⟨rfl, -⟩ := hst
          simp only [inputsOf, if_pos hu, withdrawalsOf, certsOf, ttlOf, outputsOf, feeOf, addedSum, depositSum] at *
          exact ⟨g1, g2, g3, g4, g5, g6, g7, g8, fun hn => g9 (hno hn)⟩
        · rw [if_neg hu] at hst
          simp only [Prod.mk.injEq] at hst
          obtain ⟨rfl, -⟩ := hst
          simp only [inputsOf, if_neg hu, withdrawalsOf, certsOf, ttlOf, outputsOf, feeOf, addedSum, depositSum,
            List.map_cons, List.foldl_cons, List.sum_cons] at *
          refine ⟨g1, g2, g3, g4, g5, g6, ?_, g8, fun hn => g9 (hno hn)⟩
          intro n hn
          rw [g7 (n + u.value) (show addMixed b.inputTotal u.value = _ by rw [hn, addMixed_i64])]
          congr 1; omega
      case addWithdrawal a n =>
        obtain ⟨rfl, -⟩ := hst
        simp only [inputsOf, withdrawalsOf, certsOf, ttlOf, outputsOf, feeOf, addedSum, depositSum,
            List.map_cons, List.foldl_cons, List.sum_cons] at *
        refine ⟨g1, g2, g3, g4, g5, g6, ?_, g8, fun hn => g9 (hno hn)⟩
        intro m hm
        rw [g7 (m + n) (show addMixed b.inputTotal n = _ by rw [hm, addMixed_i64])]
        congr 1; omega
      case updateFee n =>
        obtain ⟨f, rfl⟩ := updateFee_frame k b b1 n _ hst
        simp only [inputsOf, withdrawalsOf, certsOf, ttlOf, addedSum, depositSum] at *
        exact ⟨g1, g2, g3, g4, g5, g6, g7, g8, fun hn => absurd rfl ((hn (.updateFee n) (by simp)).1 n)⟩
      case balance n f =>
        obtain ⟨outs, fee, rfl⟩ := balance_frame k b b1 n f _ hst
        simp only [inputsOf, withdrawalsOf, certsOf, ttlOf, addedSum, depositSum] at *
        exact ⟨g1, g2, g3, g4, g5, g6, g7, g8, fun hn => absurd rfl ((hn (.balance n f) (by simp)).2 n f)⟩
      case sign key =>
        have eb : b1.tx.body = b.tx.body := other_body E k b b1 (.sign key) o rfl rfl (by simp [step, hst])
        have et : b1.inputTotal = b.inputTotal ∧ b1.depositTotal = b.depositTotal := by
          rcases sign_cases E b key with ⟨_, _, -, hs⟩ | hs
          · rw [hs] at hst; simp only [Prod.mk.injEq] at hst; rw [← hst.1]; exact ⟨rfl, rfl⟩
          · have : b1 = b := by rw [← hs, hst]
            rw [this]; exact ⟨rfl, rfl⟩
        simp only [inputsOf, withdrawalsOf, certsOf, ttlOf, outputsOf, feeOf, addedSum, depositSum, eb, et.1, et.2] at *
        exact ⟨g1, g2, g3, g4, g5, g6, g7, g8, fun hn => g9 (hno hn)⟩
      case setTtl t =>
        obtain ⟨rfl, -⟩ := hst
        simp only [inputsOf, withdrawalsOf, certsOf, ttlOf, outputsOf, feeOf, addedSum, depositSum] at *
        refine ⟨g1, g2, g3, ?_, g5, g6, g7, g8, fun hn => g9 (hno hn)⟩
        rw [g4]; cases ttlOf ops <;> rfl
      case setFee f =>
        obtain ⟨rfl, -⟩ := hst
        simp only [inputsOf, withdrawalsOf, certsOf, ttlOf, outputsOf, feeOf, addedSum, depositSum] at *
        refine ⟨g1, g2, g3, g4, g5, g6, g7, g8, fun hn => ⟨(g9 (hno hn)).1, ?_⟩⟩
        rw [(g9 (hno hn)).2]; cases feeOf ops <;> rfl
      case addOutputBase a n =>
        obtain ⟨rfl, -⟩ := hst
        simp only [inputsOf, withdrawalsOf, certsOf, ttlOf, outputsOf, feeOf, addedSum, depositSum] at *
        refine ⟨g1, g2, g3, g4, g5, g6, g7, g8, fun hn => ⟨?_, (g9 (hno hn)).2⟩⟩
        rw [(g9 (hno hn)).1]
        simp [addOutput, setBody, clearWitnessSet]
      case addOutputEnterprise a n =>
        obtain ⟨rfl, -⟩ := hst
        simp only [inputsOf, withdrawalsOf, certsOf, ttlOf, outputsOf, feeOf, addedSum, depositSum] at *
        refine ⟨g1, g2, g3, g4, g5, g6, g7, g8, fun hn => ⟨?_, (g9 (hno hn)).2⟩⟩
        rw [(g9 (hno hn)).1]
        simp [addOutput, setBody, clearWitnessSet]
      case setChangeBase a =>
        obtain ⟨rfl, -⟩ := hst
        exact ⟨g1, g2, g3, g4, g5, g6, g7, g8, fun hn => g9 (hno hn)⟩
      case setChangeEnterprise a =>
        obtain ⟨rfl, -⟩ := hst
        exact ⟨g1, g2, g3, g4, g5, g6, g7, g8, fun hn => g9 (hno hn)⟩
      case setMinFeeA a =>
        obtain ⟨rfl, -⟩ := hst
        exact ⟨g1, g2, g3, g4, g5, g6, g7, g8, fun hn => g9 (hno hn)⟩
      case setMinFeeB a =>
        obtain ⟨rfl, -⟩ := hst
        exact ⟨g1, g2, g3, g4, g5, g6, g7, g8, fun hn => g9 (hno hn)⟩
      case clearWitnessSet =>
        obtain ⟨rfl, -⟩ := hst
        exact ⟨g1, g2, g3, g4, g5, g6, g7, g8, fun hn => g9 (hno hn)⟩
      all_goals
        obtain ⟨rfl, -⟩ := hst
        simp only [inputsOf, withdrawalsOf, certsOf, ttlOf, outputsOf, feeOf, addedSum, depositSum,
            List.map_cons, List.sum_cons] at *
        refine ⟨g1, g2, ?_, g4, g5, g6, g7, ?_, fun hn => g9 (hno hn)⟩
        · rw [g3]
          simp [addPoolRegistration, addPoolRetirement, addStakeRegistration, addStakeDeregistration,
            addStakeDelegation, addCert, setBody, credOf]
        · intro n hn
          refine Eq.trans (g8 _ (Eq.trans (congrArg (addMixed · _) hn) (addMixed_i64 n _))) ?_
          congr 1; omega

end Cardano.TxBuilder
