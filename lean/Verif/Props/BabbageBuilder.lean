import Verif.Props.BabbageFee
import Verif.Props.TxTotals
import Verif.Props.LedgerSafe
import Mathlib.Tactic.FinCases

/-! # C76 and C78: histories of Babbage builder calls -/

namespace Cardano.BabbageBuilder

open Cardano Cardano.Ledger Cardano.Cbor Cardano.Spec.BabbageBuilder Cardano.Spec.Ledger
open Cardano.TxBuilder (Env SKey replaceWitness feeFor)
open Cardano.Spec.TxBuilder (KeyWF Verifies lastFor WitnessSized minFee)

/-! ## What each call changes -/

theorem sign_cases (E : Env) (b : Builder) (k : SKey) :
    (∃ key sig, k.sign E (getID E b) = .ok sig ∧ k.pub E = .ok key ∧
      sign E b k = ({ b with tx := { b.tx with wits := { b.tx.wits with vkeys := replaceWitness b.tx.wits.vkeys key sig } } }, .ok ()))
    ∨ ((sign E b k).1 = b ∧ (sign E b k).2 ≠ .ok ()) := by
  unfold sign
  split
  · rename_i key sig h
    unfold witnessFor at h
    obtain ⟨s, h1, h2⟩ := Out.bind_eq_ok.mp h
    obtain ⟨p, h3, h4⟩ := Out.bind_eq_ok.mp h2
    injection h4 with h4; injection h4 with h5 h6
    subst h5; subst h6
    exact Or.inl ⟨p, s, h1, h3, rfl⟩
  · exact Or.inr ⟨rfl, by simp⟩
  · exact Or.inr ⟨rfl, by simp⟩

/-- A call that changes the body leaves no key witness. -/
theorem changes_vkeys (E : Env) (k : Nat) (b b' : Builder) (op : Op) (o : Out Unit) (hc : changesBody op = true)
    (h : step E k b op = some (b', o)) : b'.tx.wits.vkeys = [] := by
  cases op <;> simp only [step, Option.some.injEq, Prod.mk.injEq] at h <;>
    simp only [changesBody, Bool.false_eq_true] at hc
  case addInput id i =>
    unfold addInput at h
    rw [if_neg (by simpa using hc)] at h
    simp only [Prod.mk.injEq] at h; rw [← h.1]; rfl
  case calculateFee n =>
    obtain ⟨⟨b1, f⟩, h1, h2⟩ := Option.map_eq_some_iff.mp h
    obtain ⟨rfl, -⟩ := calculateFee_frame k b b1 n f h1
    simp only [Prod.mk.injEq] at h2
    rw [← h2.1]; rfl
  all_goals (rw [← h.1]; rfl)

/-- Any other call except `sign` keeps the transaction. -/
theorem other_tx (E : Env) (k : Nat) (b b' : Builder) (op : Op) (o : Out Unit) (hc : changesBody op = false)
    (hs : ∀ key, op ≠ .sign key) (h : step E k b op = some (b', o)) : b'.tx = b.tx := by
  cases op <;> simp only [step, Option.some.injEq, Prod.mk.injEq] at h <;>
    simp only [changesBody, Bool.true_eq_false] at hc
  case addInput id i =>
    unfold addInput at h
    rw [if_pos (by simpa using hc)] at h
    simp only [Prod.mk.injEq] at h; rw [← h.1]
  case sign key => exact absurd rfl (hs key)
  case balance n =>
    unfold balance at h
    simp only [Prod.mk.injEq] at h; rw [← h.1]
  all_goals rw [← h.1]

/-! ## C76 -/

/-- The witness is a signature, by the key it names, of the id of the builder's body; the key
has the property `K`. -/
def SignsWF (E : Env) (K : SKey → Prop) (b : Builder) (w : VkeyWitness) : Prop :=
  ∃ (k : SKey), K k ∧ k.pub E = .ok w.vkey ∧ k.sign E (getID E b) = .ok w.sig

theorem signs_verifies (E : Env) (K : SKey → Prop) (b : Builder) (w : VkeyWitness) (h : SignsWF E K b w)
    (hK : ∀ k, K k → KeyWF k) :
    ((∀ seed, K (.ed seed) → ¬ E.S.zeroNonce seed (getID E b)) → Verifies E (getID E b) w) ∧ WitnessSized w := by
  obtain ⟨k, hk, h2, h3⟩ := h
  cases k with
  | ed seed =>
    injection h2 with h2; injection h3 with h3
    refine ⟨fun hz => Or.inl ?_, ?_⟩
    · rw [← h2, ← h3]; exact E.S.verify_sign seed _ (hK _ hk) (hz _ hk)
    · exact ⟨by rw [← h2]; exact E.S.pub_length _, by rw [← h3]; exact E.S.sign_length _ _⟩
  | bip k =>
    obtain ⟨p, hp, hl, hv⟩ := Bip32.C33_sign_verifies E.C E.P k _ w.sig h3
    simp only [SKey.pub, hp, Out.ok_bind, Out.ok.injEq] at h2
    refine ⟨fun _ => Or.inr ?_, ?_, hl⟩
    · rw [← h2]; exact hv
    · obtain ⟨-, rfl⟩ := Bip32.publicKey_ok hp
      rw [← h2]; exact E.C.enc_length _

theorem step_signs (E : Env) (K : SKey → Prop) (k : Nat) (b b' : Builder) (op : Op) (o : Out Unit)
    (h : step E k b op = some (b', o)) (hk : ∀ key, op = .sign key → K key)
    (h0 : ∀ w ∈ b.tx.wits.vkeys, SignsWF E K b w) : ∀ w ∈ b'.tx.wits.vkeys, SignsWF E K b' w := by
  cases hc : changesBody op with
  | true => rw [changes_vkeys E k b b' op o hc h]; simp
  | false =>
    by_cases hs : ∃ key, op = .sign key
    · obtain ⟨key, rfl⟩ := hs
      simp only [step, Option.some.injEq] at h
      rcases sign_cases E b key with ⟨p, s, h1, h2, h3⟩ | ⟨h1, -⟩
      · rw [h3] at h
        simp only [Prod.mk.injEq] at h
        rw [← h.1]
        intro w hw
        simp only [replaceWitness, List.mem_append, List.mem_filter, List.mem_singleton] at hw
        rcases hw with ⟨hw, -⟩ | rfl
        · exact h0 w hw
        · exact ⟨key, hk _ rfl, h2, h1⟩
      · have : b' = b := by rw [← h1, h]
        rw [this]; exact h0
    · have e := other_tx E k b b' op o hc (fun key e => hs ⟨key, e⟩) h
      intro w hw
      rw [e] at hw
      obtain ⟨key, g1, g2, g3⟩ := h0 w hw
      refine ⟨key, g1, g2, ?_⟩
      unfold getID at *; rw [e]; exact g3

theorem run_signs (E : Env) (K : SKey → Prop) (k : Nat) (ops : List Op) : ∀ b b', run E k b ops = some b' →
    (∀ key, Op.sign key ∈ ops → K key) → (∀ w ∈ b.tx.wits.vkeys, SignsWF E K b w) →
    ∀ w ∈ b'.tx.wits.vkeys, SignsWF E K b' w := by
  induction ops with
  | nil =>
    intro b b' h _ h0
    simp only [run, Option.some.injEq] at h
    rw [← h]; exact h0
  | cons op ops ih =>
    intro b b' h hk h0
    rw [run] at h
    split at h
    · cases h
    · cases h
    · rename_i b1 o _ hst
      exact ih b1 b' h (fun key e => hk key (by simp [e]))
        (step_signs E K k b b1 op o hst (fun key e => hk key (by simp [e])) h0)

/-- **C76**: after *any* history of calls on a new builder — including calls that threw —
every key witness is a valid signature of the id of the current body, by the key it names
(provided no Ed25519 signature has nonce zero, see `Ed25519.sigHash`). -/
theorem C76_witnesses_valid (E : Env) (k : Nat) (b : Builder) (ops : List Op) (h : run E k {} ops = some b)
    (hk : ∀ key, Op.sign key ∈ ops → KeyWF key) :
    ∀ w ∈ b.tx.wits.vkeys, WitnessSized w ∧
      ((∀ seed, Op.sign (.ed seed) ∈ ops → ¬ E.S.zeroNonce seed (E.S.hash b.tx.body.serialize)) →
        Verifies E (E.S.hash b.tx.body.serialize) w) := by
  intro w hw
  obtain ⟨h1, h2⟩ := signs_verifies E (fun key => KeyWF key ∧ Op.sign key ∈ ops) b w
    (run_signs E _ k ops {} b h (fun key e => ⟨hk key e, e⟩) (by simp) w hw) (fun _ h => h.1)
  exact ⟨h2, fun hz => h1 fun seed e => hz seed e.2⟩

theorem step_vkeys (E : Env) (k : Nat) (b b' : Builder) (op : Op) (o : Out Unit) (h : step E k b op = some (b', o)) :
    b'.tx.wits.vkeys = [] ∨ b'.tx.wits.vkeys = b.tx.wits.vkeys ∨
      ∃ key sig, b'.tx.wits.vkeys = replaceWitness b.tx.wits.vkeys key sig := by
  cases hc : changesBody op with
  | true => exact Or.inl (changes_vkeys E k b b' op o hc h)
  | false =>
    by_cases hs : ∃ key, op = .sign key
    · obtain ⟨key, rfl⟩ := hs
      simp only [step, Option.some.injEq] at h
      rcases sign_cases E b key with ⟨p, s, -, -, h3⟩ | ⟨h1, -⟩
      · rw [h3] at h
        simp only [Prod.mk.injEq] at h
        rw [← h.1]; exact Or.inr (Or.inr ⟨p, s, rfl⟩)
      · have : b' = b := by rw [← h1, h]
        rw [this]; exact Or.inr (Or.inl rfl)
    · rw [other_tx E k b b' op o hc (fun key e => hs ⟨key, e⟩) h]
      exact Or.inr (Or.inl rfl)

/-- **C76**: no two key witnesses have the same verification key. -/
theorem C76_one_witness_per_key (E : Env) (k : Nat) (b b' : Builder) (ops : List Op)
    (h0 : (b.tx.wits.vkeys.map (·.vkey)).Nodup) (h : run E k b ops = some b') :
    (b'.tx.wits.vkeys.map (·.vkey)).Nodup := by
  induction ops generalizing b with
  | nil => simp only [run, Option.some.injEq] at h; rw [← h]; exact h0
  | cons op ops ih =>
    rw [run] at h
    split at h
    · cases h
    · cases h
    · rename_i b1 o _ hs
      refine ih b1 ?_ h
      rcases step_vkeys E k b b1 op o hs with e | e | ⟨key, sig, e⟩
      · rw [e]; simp
      · rw [e]; exact h0
      · rw [e]; exact TxBuilder.replace_onePerKey _ _ _ h0

/-- **C76**: the transaction is signed by exactly the keys that signed it successfully since
the last call that changed the body (or removed the witnesses). -/
theorem C76_signers (E : Env) (k : Nat) (ops : List Op) : ∀ b, run E k {} ops = some b → ∀ pk,
    (∃ w ∈ b.tx.wits.vkeys, w.vkey = pk) ↔
      ∃ pre key post bp, ops = pre ++ Op.sign key :: post ∧ run E k {} pre = some bp ∧
        (sign E bp key).2 = .ok () ∧ key.pub E = .ok pk ∧ ∀ op ∈ post, changesBody op = false := by
  have run_snoc : ∀ (ops : List Op) (op : Op) (b : Builder), run E k b (ops ++ [op]) =
      match run E k b ops with
      | none => none
      | some b' => run E k b' [op] := by
    intro ops op
    induction ops with
    | nil => intro b; rfl
    | cons o ops ih =>
      intro b
      rw [List.cons_append, run, run]
      split <;> simp_all
  induction ops using List.reverseRecOn with
  | nil =>
    intro b h pk
    simp only [run, Option.some.injEq] at h
    subst h
    constructor
    · rintro ⟨w, hw, -⟩; simp at hw
    · rintro ⟨pre, key, post, bp, h, -⟩; simp at h
  | append_singleton ops op ih =>
    intro b h pk
    rw [run_snoc] at h
    split at h
    · cases h
    rename_i b1 hr
    have hpre := ih b1 hr pk
    rw [run] at h
    split at h
    · cases h
    · cases h
    rename_i b2 o hub hst
    simp only [run, Option.some.injEq] at h
    subst h
    -- a signature before the last call, or the last call
    have split_last : ∀ pre key post, ops ++ [op] = pre ++ Op.sign key :: post →
        (post = [] ∧ pre = ops ∧ op = .sign key) ∨ ∃ post', post = post' ++ [op] ∧ ops = pre ++ Op.sign key :: post' := by
      intro pre key post e
      rcases List.eq_nil_or_concat post with rfl | ⟨q, x, rfl⟩
      · left
        have := List.append_inj' e (by simp)
        exact ⟨rfl, this.1.symm, by simpa using this.2⟩
      · right
        have e' : ops ++ [op] = (pre ++ Op.sign key :: q) ++ [x] := by simpa using e
        obtain ⟨e1, e2⟩ := List.append_inj' e' (by simp)
        simp only [List.cons.injEq, and_true] at e2
        exact ⟨q, by rw [e2, List.concat_eq_append], e1⟩
    cases hc : changesBody op with
    | true =>
      rw [changes_vkeys E k b1 b2 op o hc hst]
      constructor
      · rintro ⟨w, hw, -⟩; simp at hw
      · rintro ⟨pre, key, post, bp, he, -, -, -, hp⟩
        rcases split_last pre key post he with ⟨-, -, rfl⟩ | ⟨post', rfl, -⟩
        · simp [changesBody] at hc
        · have := hp op (by simp)
          rw [hc] at this; cases this
    | false =>
      by_cases hs : ∃ key, op = .sign key
      · obtain ⟨key, rfl⟩ := hs
        simp only [step, Option.some.injEq] at hst
        rcases sign_cases E b1 key with ⟨p, s, g1, g2, g3⟩ | ⟨g1, g2⟩
        · have hb2 : b2 = { b1 with tx := { b1.tx with wits := { b1.tx.wits with vkeys := replaceWitness b1.tx.wits.vkeys p s } } } := by
            rw [g3] at hst; simp only [Prod.mk.injEq] at hst; exact hst.1.symm
          have hmem : (∃ w ∈ b2.tx.wits.vkeys, w.vkey = pk) ↔ (∃ w ∈ b1.tx.wits.vkeys, w.vkey = pk) ∨ p = pk := by
            rw [hb2]
            simp only [replaceWitness, List.mem_append, List.mem_filter, List.mem_singleton]
            constructor
            · rintro ⟨w, ⟨hw, -⟩ | rfl, e⟩
              · exact Or.inl ⟨w, hw, e⟩
              · exact Or.inr e
            · rintro (⟨w, hw, e⟩ | e)
              · by_cases hp : p = pk
                · exact ⟨_, Or.inr rfl, hp⟩
                · exact ⟨w, Or.inl ⟨hw, by simp [e, Ne.symm hp]⟩, e⟩
              · exact ⟨_, Or.inr rfl, e⟩
          rw [hmem, hpre]
          constructor
          · rintro (⟨pre, key', post, bp, e1, e2, e3, e4, e5⟩ | e)
            · refine ⟨pre, key', post ++ [.sign key], bp, by rw [e1]; simp, e2, e3, e4, ?_⟩
              intro x hx
              rcases List.mem_append.mp hx with hx | hx
              · exact e5 x hx
              · simp only [List.mem_singleton] at hx; subst hx; rfl
            · exact ⟨ops, key, [], b1, rfl, hr, by rw [g3], by rw [g2, e], by simp⟩
          · rintro ⟨pre, key', post, bp, e1, e2, e3, e4, e5⟩
            rcases split_last pre key' post e1 with ⟨rfl, rfl, e⟩ | ⟨post', rfl, e⟩
            · injection e with e
              subst e
              rw [g2] at e4
              injection e4 with e4
              exact Or.inr e4
            · exact Or.inl ⟨pre, key', post', bp, e, e2, e3, e4, fun x hx => e5 x (by simp [hx])⟩
        · have hb2 : b2 = b1 := by rw [← g1, hst]
          rw [hb2, hpre]
          constructor
          · rintro ⟨pre, key', post, bp, e1, e2, e3, e4, e5⟩
            refine ⟨pre, key', post ++ [.sign key], bp, by rw [e1]; simp, e2, e3, e4, ?_⟩
            intro x hx
            rcases List.mem_append.mp hx with hx | hx
            · exact e5 x hx
            · simp only [List.mem_singleton] at hx; subst hx; rfl
          · rintro ⟨pre, key', post, bp, e1, e2, e3, e4, e5⟩
            rcases split_last pre key' post e1 with ⟨rfl, rfl, e⟩ | ⟨post', rfl, e⟩
            · injection e with e
              subst e
              rw [hr] at e2
              injection e2 with e2
              subst e2
              exact absurd e3 g2
            · exact ⟨pre, key', post', bp, e, e2, e3, e4, fun x hx => e5 x (by simp [hx])⟩
      · rw [other_tx E k b1 b2 op o hc (fun key e => hs ⟨key, e⟩) hst, hpre]
        constructor
        · rintro ⟨pre, key', post, bp, e1, e2, e3, e4, e5⟩
          refine ⟨pre, key', post ++ [op], bp, by rw [e1]; simp, e2, e3, e4, ?_⟩
          intro x hx
          rcases List.mem_append.mp hx with hx | hx
          · exact e5 x hx
          · simp only [List.mem_singleton] at hx; subst hx; exact hc
        · rintro ⟨pre, key', post, bp, e1, e2, e3, e4, e5⟩
          rcases split_last pre key' post e1 with ⟨rfl, rfl, e⟩ | ⟨post', rfl, e⟩
          · exact absurd ⟨key', e⟩ hs
          · exact ⟨pre, key', post', bp, e, e2, e3, e4, fun x hx => e5 x (by simp [hx])⟩

/-- Signing with an Ed25519 key always succeeds, so `C76_signers` is about the calls made. -/
theorem C76_ed_signs (E : Env) (b : Builder) (seed : Bytes) : (sign E b (.ed seed)).2 = .ok () := rfl

/-! ## C78: what a history builds -/

theorem run_facts (E : Env) (k : Nat) (ops : List Op) : ∀ b b', run E k b ops = some b' →
    b'.tx.body.inputs = (inputsOf ops).foldl (fun s i => setInsert TxIn.lt i s) b.tx.body.inputs ∧
    b'.tx.body.withdrawals = (withdrawalsOf ops).foldl (fun m e => mapAssign bytesLt e.1 e.2 m) b.tx.body.withdrawals ∧
    b'.tx.body.outputs = b.tx.body.outputs ++ outputsOf ops ∧
    b'.tx.body.certificates = b.tx.body.certificates ∧ b'.tx.flag = b.tx.flag ∧
    b'.tx.body.ttl = (ttlOf ops).or b.tx.body.ttl ∧
    (NoComputedFee ops → b'.tx.body.fee = (feeOf ops).getD b.tx.body.fee) ∧
    ((∀ f, Op.setFee f ∈ ops → f < 2 ^ 64) → b.tx.body.fee < 2 ^ 64 → b'.tx.body.fee < 2 ^ 64) := by
  induction ops with
  | nil =>
    intro b b' h
    simp only [run, Option.some.injEq] at h
    subst h
    simp [inputsOf, withdrawalsOf, ttlOf, outputsOf, feeOf]
  | cons op ops ih =>
    intro b b' h
    rw [run] at h
    split at h
    · cases h
    · cases h
    · rename_i b1 o _ hst
      obtain ⟨g1, g2, g3, g4, g5, g6, g7, g8⟩ := ih b1 b' h
      have hno : NoComputedFee (op :: ops) → NoComputedFee ops := fun hn n hx => hn n (by simp [hx])
      have hf : (∀ f, Op.setFee f ∈ op :: ops → f < 2 ^ 64) → (∀ f, Op.setFee f ∈ ops → f < 2 ^ 64) :=
        fun hn f hx => hn f (by simp [hx])
      have same : b1.tx.body = b.tx.body → b1.tx.flag = b.tx.flag →
          inputsOf (op :: ops) = inputsOf ops → withdrawalsOf (op :: ops) = withdrawalsOf ops →
          outputsOf (op :: ops) = outputsOf ops → ttlOf (op :: ops) = ttlOf ops → feeOf (op :: ops) = feeOf ops →
          b'.tx.body.inputs = (inputsOf (op :: ops)).foldl (fun s i => setInsert TxIn.lt i s) b.tx.body.inputs ∧
          b'.tx.body.withdrawals = (withdrawalsOf (op :: ops)).foldl (fun m e => mapAssign bytesLt e.1 e.2 m) b.tx.body.withdrawals ∧
          b'.tx.body.outputs = b.tx.body.outputs ++ outputsOf (op :: ops) ∧
          b'.tx.body.certificates = b.tx.body.certificates ∧ b'.tx.flag = b.tx.flag ∧
          b'.tx.body.ttl = (ttlOf (op :: ops)).or b.tx.body.ttl ∧
          (NoComputedFee (op :: ops) → b'.tx.body.fee = (feeOf (op :: ops)).getD b.tx.body.fee) ∧
          ((∀ f, Op.setFee f ∈ op :: ops → f < 2 ^ 64) → b.tx.body.fee < 2 ^ 64 → b'.tx.body.fee < 2 ^ 64) := by
        intro e e' i1 i2 i3 i4 i5
        rw [i1, i2, i3, i4, i5, ← e, ← e']
        exact ⟨g1, g2, g3, g4, g5, g6, fun hn => g7 (hno hn), fun h1 h2 => g8 (hf h1) h2⟩
      cases op <;> simp only [step, Option.some.injEq, Prod.mk.injEq] at hst
      case addInput id i =>
        unfold addInput at hst
        by_cases hu : id.length < 32
        · rw [if_pos hu] at hst
          simp only [Prod.mk.injEq] at hst
          obtain ⟨rfl, -⟩ := hst
          exact same rfl rfl (by simp [inputsOf, hu]) rfl rfl rfl rfl
        · rw [if_neg hu] at hst
          simp only [Prod.mk.injEq] at hst
          obtain ⟨rfl, -⟩ := hst
          rw [show inputsOf (.addInput id i :: ops) = ⟨id.take 32, i⟩ :: inputsOf ops by simp [inputsOf, hu]]
          exact ⟨g1, g2, g3, g4, g5, g6, fun hn => g7 (hno hn), fun h1 h2 => g8 (hf h1) h2⟩
      case addWithdrawal a n =>
        obtain ⟨rfl, -⟩ := hst
        exact ⟨g1, g2, g3, g4, g5, g6, fun hn => g7 (hno hn), fun h1 h2 => g8 (hf h1) h2⟩
      case calculateFee n =>
        obtain ⟨⟨b2, f⟩, h1, h2⟩ := Option.map_eq_some_iff.mp hst
        obtain ⟨rfl, hfix⟩ := calculateFee_frame k b b2 n f h1
        simp only [Prod.mk.injEq] at h2
        obtain ⟨rfl, -⟩ := h2
        refine ⟨g1, g2, g3, g4, g5, g6, fun hn => absurd (by simp) (hn n), fun h1 h2 => g8 (hf h1) ?_⟩
        show f < 2 ^ 64
        rw [← hfix]; exact Nat.mod_lt _ (by decide)
      case sign key =>
        rcases sign_cases E b key with ⟨_, _, -, -, hs⟩ | ⟨hs, -⟩
        · rw [hs] at hst; simp only [Prod.mk.injEq] at hst
          obtain ⟨rfl, -⟩ := hst
          exact same rfl rfl rfl rfl rfl rfl rfl
        · have : b1 = b := by rw [← hs, hst]
          subst this
          exact same rfl rfl rfl rfl rfl rfl rfl
      case setTtl t =>
        obtain ⟨rfl, -⟩ := hst
        refine ⟨g1, g2, g3, g4, g5, ?_, fun hn => g7 (hno hn), fun h1 h2 => g8 (hf h1) h2⟩
        rw [g6]
        simp only [ttlOf]
        cases ttlOf ops <;> rfl
      case setFee f =>
        obtain ⟨rfl, -⟩ := hst
        refine ⟨g1, g2, g3, g4, g5, g6, fun hn => ?_, fun h1 h2 => g8 (hf h1) (h1 f (by simp))⟩
        rw [g7 (hno hn)]
        simp only [feeOf]
        cases feeOf ops <;> rfl
      case addOutputBase a n p =>
        obtain ⟨rfl, -⟩ := hst
        refine ⟨g1, g2, ?_, g4, g5, g6, fun hn => g7 (hno hn), fun h1 h2 => g8 (hf h1) h2⟩
        rw [g3]
        cases p <;> simp [addOutput, setBody, clearWitnessSet, outputsOf, payment, output]
      case addOutputEnterprise a n p =>
        obtain ⟨rfl, -⟩ := hst
        refine ⟨g1, g2, ?_, g4, g5, g6, fun hn => g7 (hno hn), fun h1 h2 => g8 (hf h1) h2⟩
        rw [g3]
        cases p <;> simp [addOutput, setBody, clearWitnessSet, outputsOf, payment, output]
      case balance n =>
        unfold balance at hst
        simp only [Prod.mk.injEq] at hst
        obtain ⟨rfl, -⟩ := hst
        exact same rfl rfl rfl rfl rfl rfl rfl
      all_goals
        obtain ⟨rfl, -⟩ := hst
        exact same rfl rfl rfl rfl rfl rfl rfl

/-- **C78**: after any history of calls on a new builder the body holds exactly what was asked
for: the set of inputs with a valid id, every output in order, the last withdrawal of every
address, the last time to live, the last fee (unless one was computed); nothing else. -/
theorem C78_body (E : Env) (k : Nat) (ops : List Op) (b : Builder) (h : run E k {} ops = some b) :
    (StrictSorted TxIn.lt b.tx.body.inputs ∧ ∀ i, i ∈ b.tx.body.inputs ↔ i ∈ inputsOf ops) ∧
    b.tx.body.outputs = outputsOf ops ∧
    (StrictSorted bytesLt (b.tx.body.withdrawals.map (·.1)) ∧
      ∀ a n, (a, n) ∈ b.tx.body.withdrawals ↔ lastFor a (withdrawalsOf ops) = some n) ∧
    b.tx.body.ttl = ttlOf ops ∧ (NoComputedFee ops → b.tx.body.fee = (feeOf ops).getD 0) ∧
    b.tx.body.certificates = [] ∧ b.tx.flag = true := by
  obtain ⟨g1, g2, g3, g4, g5, g6, g7, -⟩ := run_facts E k ops {} b h
  have s1 := foldl_setInsert txInLt_order (inputsOf ops) [] List.Pairwise.nil
  have s2 := TxBuilder.foldl_mapAssign (withdrawalsOf ops) [] List.Pairwise.nil
  refine ⟨⟨by rw [g1]; exact s1.1, fun i => by rw [g1, s1.2]; simp⟩, by rw [g3]; rfl,
    ⟨by rw [g2]; exact s2.1, fun a n => by rw [g2, s2.2]; simp⟩, by rw [g6]; cases ttlOf ops <;> rfl, ?_, g4, g5⟩
  intro hn
  rw [g7 hn]

theorem inputsOf_rep (ops : List Op) (ha : ∀ op ∈ ops, ArgsWF op) : ∀ i ∈ inputsOf ops, InRep i := by
  induction ops with
  | nil => simp [inputsOf]
  | cons op ops ih =>
    have ih' := ih fun x hx => ha x (by simp [hx])
    have h1 := ha op (by simp)
    cases op with
    | addInput id i =>
      simp only [inputsOf]
      split
      · exact ih'
      · rename_i hu
        intro x hx
        rcases List.mem_cons.mp hx with rfl | hx
        · exact ⟨by simp; omega, h1⟩
        · exact ih' x hx
    | _ => exact ih'

theorem outputsOf_rep (ops : List Op) (ha : ∀ op ∈ ops, ArgsWF op) : ∀ o ∈ outputsOf ops, BabbageOutRep o := by
  have pay : ∀ a n p, Fits a → n < 2 ^ 64 → BabbageOutRep (payment a n p) := by
    intro a n p h1 h2
    cases p
    · exact ⟨h1, h2⟩
    · exact ⟨h1, h2, by simp⟩
  induction ops with
  | nil => simp [outputsOf]
  | cons op ops ih =>
    have ih' := ih fun x hx => ha x (by simp [hx])
    have h1 := ha op (by simp)
    cases op with
    | addOutputBase a n p =>
      obtain ⟨l1, l2, l3⟩ := h1
      intro x hx
      rcases List.mem_cons.mp hx with rfl | hx
      · exact pay _ _ _ (by simp [Fits, Address.Base.toBytes, l1, l2]) l3
      · exact ih' x hx
    | addOutputEnterprise a n p =>
      obtain ⟨l1, l3⟩ := h1
      intro x hx
      rcases List.mem_cons.mp hx with rfl | hx
      · exact pay _ _ _ (by simp [Fits, Address.Single.toBytes, l1]) l3
      · exact ih' x hx
    | _ => exact ih'

theorem withdrawalsOf_rep (ops : List Op) (ha : ∀ op ∈ ops, ArgsWF op) :
    ∀ w ∈ withdrawalsOf ops, Fits w.1 ∧ U64 w.2 := by
  induction ops with
  | nil => simp [withdrawalsOf]
  | cons op ops ih =>
    have ih' := ih fun x hx => ha x (by simp [hx])
    have h1 := ha op (by simp)
    cases op with
    | addWithdrawal a n =>
      obtain ⟨l1, l3⟩ := h1
      intro x hx
      rcases List.mem_cons.mp hx with rfl | hx
      · exact ⟨by simp [Fits, Address.Single.toBytes, l1], l3⟩
      · exact ih' x hx
    | _ => exact ih'

theorem ttlOf_rep (ops : List Op) (ha : ∀ op ∈ ops, ArgsWF op) : ∀ t ∈ ttlOf ops, U64 t := by
  induction ops with
  | nil => simp [ttlOf]
  | cons op ops ih =>
    have ih' := ih fun x hx => ha x (by simp [hx])
    have h1 := ha op (by simp)
    cases op with
    | setTtl t =>
      intro x hx
      simp only [ttlOf, Option.mem_def, Option.some.injEq] at hx
      cases ht : ttlOf ops with
      | none => rw [ht] at hx; rw [← hx]; exact h1
      | some v => rw [ht] at hx; exact ih' x (by rw [ht]; exact congrArg some hx)
    | _ => exact ih'

theorem lengths (ops : List Op) : (inputsOf ops).length ≤ ops.length ∧ (outputsOf ops).length ≤ ops.length ∧
    (withdrawalsOf ops).length ≤ ops.length := by
  induction ops with
  | nil => simp [inputsOf, outputsOf, withdrawalsOf]
  | cons op ops ih =>
    obtain ⟨h1, h2, h3⟩ := ih
    cases op <;> simp only [inputsOf, outputsOf, withdrawalsOf, List.length_cons] <;>
      (try split) <;> (try simp only [List.length_cons]) <;> omega

theorem foldl_setInsert_length (l acc : List TxIn) :
    (l.foldl (fun s i => setInsert TxIn.lt i s) acc).length ≤ acc.length + l.length := by
  have one : ∀ (x : TxIn) (acc : List TxIn), (setInsert TxIn.lt x acc).length ≤ acc.length + 1 := by
    intro x acc
    induction acc with
    | nil => simp [setInsert]
    | cons y ys ih => simp only [setInsert]; (repeat' split) <;> simp <;> omega
  induction l generalizing acc with
  | nil => simp
  | cons x xs ih =>
    have h1 := ih (setInsert TxIn.lt x acc)
    have h2 := one x acc
    simp only [List.foldl_cons, List.length_cons]; omega

theorem foldl_mapAssign_length (l acc : List (Bytes × Nat)) :
    (l.foldl (fun m e => mapAssign bytesLt e.1 e.2 m) acc).length ≤ acc.length + l.length := by
  have one : ∀ (x : Bytes) (n : Nat) (acc : List (Bytes × Nat)), (mapAssign bytesLt x n acc).length ≤ acc.length + 1 := by
    intro x n acc
    induction acc with
    | nil => simp [mapAssign]
    | cons y ys ih => simp only [mapAssign]; (repeat' split) <;> simp <;> omega
  induction l generalizing acc with
  | nil => simp
  | cons x xs ih =>
    have h1 := ih (mapAssign bytesLt x.1 x.2 acc)
    have h2 := one x.1 x.2 acc
    simp only [List.foldl_cons, List.length_cons]; omega

/-- Whatever the calls, the body can be represented. -/
theorem run_rep (E : Env) (k : Nat) (ops : List Op) (b : Builder) (h : run E k {} ops = some b)
    (ha : ∀ op ∈ ops, ArgsWF op) (hl : ops.length < 2 ^ 60) : BabbageBodyRep b.tx.body := by
  obtain ⟨⟨c1, c2⟩, c3, ⟨c4, c5⟩, c6, -, -, -⟩ := C78_body E k ops b h
  obtain ⟨g1, g2, -, -, -, -, -, g8⟩ := run_facts E k ops {} b h
  obtain ⟨l1, l2, l3⟩ := lengths ops
  refine ⟨⟨?_, c1, fun i hi => inputsOf_rep ops ha i ((c2 i).mp hi)⟩,
    ⟨by rw [c3]; unfold Fits; omega, by rw [c3]; exact outputsOf_rep ops ha⟩,
    g8 (fun f hf => ha _ hf) (by decide), by rw [c6]; exact ttlOf_rep ops ha, ⟨?_, c4, ?_⟩⟩
  · have := foldl_setInsert_length (inputsOf ops) []
    have e : b.tx.body.inputs = (inputsOf ops).foldl (fun s i => setInsert TxIn.lt i s) [] := g1
    rw [e]; unfold Fits; simp only [List.length_nil] at this; omega
  · have := foldl_mapAssign_length (withdrawalsOf ops) []
    have e : b.tx.body.withdrawals = (withdrawalsOf ops).foldl (fun m e => mapAssign bytesLt e.1 e.2 m) [] := g2
    rw [e]; unfold Fits; simp only [List.length_nil] at this; omega
  · intro w hw
    have := (c5 w.1 w.2).mp hw
    exact withdrawalsOf_rep ops ha _ (TxBuilder.lastFor_mem _ _ _ this)

/-- **C78**: whatever the history, the bytes `serialize` returns are a transaction of the Babbage
CDDL. -/
theorem C78_cddl (E : Env) (k : Nat) (ops : List Op) (b : Builder) (h : run E k {} ops = some b)
    (ha : ∀ op ∈ ops, ArgsWF op) (hl : ops.length < 2 ^ 60) :
    ∃ i, serialize b = enc i ∧ BabbageTxC i := by
  refine ⟨.array b.tx.ser, rfl, Babbage.C64_babbage_transaction b.tx (run_rep E k ops b h ha hl) ?_⟩
  intro w hw
  exact (C76_witnesses_valid E k b ops h (fun key e => ha _ e) w hw).1

/-- **C78**: two histories produce the same body bytes exactly if they ask for the same
transaction: the same set of inputs, outputs, withdrawals, time to live and fee. -/
theorem C78_bytes_iff (E : Env) (k k' : Nat) (ops ops' : List Op) (b b' : Builder)
    (h : run E k {} ops = some b) (h' : run E k' {} ops' = some b')
    (ha : ∀ op ∈ ops, ArgsWF op) (ha' : ∀ op ∈ ops', ArgsWF op)
    (hl : ops.length < 2 ^ 60) (hl' : ops'.length < 2 ^ 60)
    (hn : NoComputedFee ops) (hn' : NoComputedFee ops') :
    b.tx.body.serialize = b'.tx.body.serialize ↔
      (∀ i, i ∈ inputsOf ops ↔ i ∈ inputsOf ops') ∧ outputsOf ops = outputsOf ops' ∧
      (∀ a, lastFor a (withdrawalsOf ops) = lastFor a (withdrawalsOf ops')) ∧
      ttlOf ops = ttlOf ops' ∧ (feeOf ops).getD 0 = (feeOf ops').getD 0 := by
  obtain ⟨⟨c1, c2⟩, c3, ⟨c4, c5⟩, c6, c7, c8, c9⟩ := C78_body E k ops b h
  obtain ⟨⟨d1, d2⟩, d3, ⟨d4, d5⟩, d6, d7, d8, d9⟩ := C78_body E k' ops' b' h'
  have hwr : ∀ ops, (outputsOf ops).map Babbage.written = outputsOf ops := by
    intro ops
    induction ops with
    | nil => rfl
    | cons op ops ih =>
      cases op with
      | addOutputBase a n p => cases p <;> simp [outputsOf, payment, Babbage.written, ih]
      | addOutputEnterprise a n p => cases p <;> simp [outputsOf, payment, Babbage.written, ih]
      | _ => exact ih
  constructor
  · intro he
    obtain ⟨e1, e2, e3, e4, e5⟩ := Babbage.C66_babbage_bytes_bind _ _ (run_rep E k ops b h ha hl)
      (run_rep E k' ops' b' h' ha' hl') he
    refine ⟨fun i => by rw [← c2, ← d2, e1], ?_, ?_, by rw [← c6, ← d6, e4], by rw [← c7 hn, ← d7 hn', e3]⟩
    · rw [c3, d3, hwr, hwr] at e2; exact e2
    · intro a
      apply Option.ext
      intro n
      rw [← c5, ← d5, e5]
  · rintro ⟨e1, e2, e3, e4, e5⟩
    have key : b.tx.body = b'.tx.body := by
      have f1 : b.tx.body.inputs = b'.tx.body.inputs :=
        sorted_ext txInLt_order _ _ c1 d1 fun i => by rw [c2, d2, e1]
      have f2 : b.tx.body.withdrawals = b'.tx.body.withdrawals :=
        map_ext bytesLt_order _ _ c4 d4 fun e => by
          obtain ⟨a, n⟩ := e
          rw [c5, d5, e3]
      have f3 : b.tx.body.outputs = b'.tx.body.outputs := by rw [c3, d3, e2]
      have f4 : b.tx.body.ttl = b'.tx.body.ttl := by rw [c6, d6, e4]
      have f5 : b.tx.body.fee = b'.tx.body.fee := by rw [c7 hn, d7 hn', e5]
      have f6 : b.tx.body.certificates = b'.tx.body.certificates := by rw [c8, d8]
      revert f1 f2 f3 f4 f5 f6
      generalize b.tx.body = x
      generalize b'.tx.body = y
      intros
      cases x; cases y
      simp_all
    rw [key]

/-- **C77**: the coefficients used are the last ones set, by default those of the era. -/
theorem C77_coefficients (E : Env) (k : Nat) (ops : List Op) : ∀ b b', run E k b ops = some b' →
    b'.minFeeA = lastSet minFeeA? b.minFeeA ops ∧ b'.minFeeB = lastSet minFeeB? b.minFeeB ops := by
  induction ops with
  | nil => intro b b' h; simp only [run, Option.some.injEq] at h; subst h; exact ⟨rfl, rfl⟩
  | cons op ops ih =>
    intro b b' h
    rw [run] at h
    split at h
    · cases h
    · cases h
    · rename_i b1 o _ hst
      obtain ⟨i1, i2⟩ := ih b1 b' h
      have key : b1.minFeeA = (minFeeA? op).getD b.minFeeA ∧ b1.minFeeB = (minFeeB? op).getD b.minFeeB := by
        cases op <;> simp only [step, Option.some.injEq, Prod.mk.injEq] at hst
        case addInput id i =>
          unfold addInput at hst
          split at hst <;> (simp only [Prod.mk.injEq] at hst; rw [← hst.1]; exact ⟨rfl, rfl⟩)
        case calculateFee n =>
          obtain ⟨⟨b2, f⟩, h1, h2⟩ := Option.map_eq_some_iff.mp hst
          obtain ⟨rfl, -⟩ := calculateFee_frame k b b2 n f h1
          simp only [Prod.mk.injEq] at h2
          rw [← h2.1]; exact ⟨rfl, rfl⟩
        case sign key =>
          rcases sign_cases E b key with ⟨_, _, -, -, hs⟩ | ⟨hs, -⟩
          · rw [hs] at hst; simp only [Prod.mk.injEq] at hst
            rw [← hst.1]; exact ⟨rfl, rfl⟩
          · have : b1 = b := by rw [← hs, hst]
            rw [this]; exact ⟨rfl, rfl⟩
        case balance n =>
          unfold balance at hst
          simp only [Prod.mk.injEq] at hst
          rw [← hst.1]; exact ⟨rfl, rfl⟩
        all_goals (rw [← hst.1]; exact ⟨rfl, rfl⟩)
      exact ⟨by rw [i1, key.1]; rfl, by rw [i2, key.2]; rfl⟩

theorem C77_default_coefficients : ({} : Builder).minFeeA = 44 ∧ ({} : Builder).minFeeB = 155381 ∧
    ∀ t, (ofTx t).minFeeA = 44 ∧ (ofTx t).minFeeB = 155381 := ⟨rfl, rfl, fun _ => ⟨rfl, rfl⟩⟩

/-- **C78** for a builder made from a transaction: what was there stays (certificates and the
validity flag included) and the calls add to it. -/
theorem C78_from_transaction (E : Env) (k : Nat) (t : Babbage.Tx) (ops : List Op) (b : Builder)
    (h : run E k (ofTx t) ops = some b)
    (hi : StrictSorted TxIn.lt t.body.inputs) (hw : StrictSorted bytesLt (t.body.withdrawals.map (·.1))) :
    (StrictSorted TxIn.lt b.tx.body.inputs ∧
      ∀ i, i ∈ b.tx.body.inputs ↔ i ∈ t.body.inputs ∨ i ∈ inputsOf ops) ∧
    b.tx.body.outputs = t.body.outputs ++ outputsOf ops ∧
    (StrictSorted bytesLt (b.tx.body.withdrawals.map (·.1)) ∧
      ∀ a n, (a, n) ∈ b.tx.body.withdrawals ↔ lastFor a (withdrawalsOf ops) = some n ∨
        (lastFor a (withdrawalsOf ops) = none ∧ (a, n) ∈ t.body.withdrawals)) ∧
    b.tx.body.ttl = (ttlOf ops).or t.body.ttl ∧ (NoComputedFee ops → b.tx.body.fee = (feeOf ops).getD t.body.fee) ∧
    b.tx.body.certificates = t.body.certificates ∧ b.tx.flag = t.flag ∧
    (ops = [] → b.tx = t) := by
  obtain ⟨g1, g2, g3, g4, g5, g6, g7, -⟩ := run_facts E k ops (ofTx t) b h
  have s1 := foldl_setInsert txInLt_order (inputsOf ops) t.body.inputs hi
  have s2 := TxBuilder.foldl_mapAssign (withdrawalsOf ops) t.body.withdrawals hw
  refine ⟨⟨by rw [g1]; exact s1.1, fun i => by rw [g1]; exact s1.2 i⟩, g3,
    ⟨by rw [g2]; exact s2.1, fun a n => by rw [g2]; exact s2.2 (a, n)⟩, g6, g7, g4, g5, ?_⟩
  rintro rfl
  simp only [run, Option.some.injEq] at h
  rw [← h]; rfl

/-- **C78**: `balance` is not implemented: it always throws and changes nothing. -/
theorem C78_balance_throws (b : Builder) (n : Nat) : balance b n = (b, .throw .runtimeError) := rfl

/-! ## C77 and C76 together: calculate the fee, then sign -/

theorem signs_run (E : Env) (k : Nat) (keys : List SKey) : ∀ b b', run E k b (keys.map Op.sign) = some b' →
    b'.tx.body = b.tx.body ∧ b'.tx.flag = b.tx.flag ∧ b'.tx.wits.vkeys.length ≤ b.tx.wits.vkeys.length + keys.length := by
  induction keys with
  | nil => intro b b' h; simp only [List.map_nil, run, Option.some.injEq] at h; subst h; simp
  | cons key keys ih =>
    intro b b' h
    rw [List.map_cons, run] at h
    split at h
    · cases h
    · cases h
    · rename_i b1 o _ hst
      obtain ⟨i1, i2, i3⟩ := ih b1 b' h
      simp only [step, Option.some.injEq] at hst
      rcases sign_cases E b key with ⟨p, s, -, -, hs⟩ | ⟨hs, -⟩
      · rw [hs] at hst; simp only [Prod.mk.injEq] at hst
        obtain ⟨rfl, -⟩ := hst
        refine ⟨i1, i2, ?_⟩
        have : (replaceWitness b.tx.wits.vkeys p s).length ≤ b.tx.wits.vkeys.length + 1 := by
          unfold replaceWitness
          rw [List.length_append]
          have := List.length_filter_le (fun w : VkeyWitness => !(w.vkey == p)) b.tx.wits.vkeys
          simp only [List.length_cons, List.length_nil]; omega
        simp only [List.length_cons] at *; omega
      · have : b1 = b := by rw [← hs, hst]
        subst this
        refine ⟨i1, i2, ?_⟩
        simp only [List.length_cons]; omega

/-- **C77**: the documented way to use the builder — `calculateFee(n)`, then sign with at most
`n` keys — ends in a transaction whose fee is at least the minimum fee of its actual bytes and
whose witnesses are all valid. -/
theorem C77_calculate_then_sign (E : Env) (k : Nat) (b b1 b' : Builder) (n f : Nat) (keys : List SKey)
    (h : calculateFee k b n = some (b1, f)) (h' : run E k b1 (keys.map Op.sign) = some b')
    (hk : keys.length ≤ n) (hwf : ∀ key ∈ keys, KeyWF key)
    (hz : ∀ seed, .ed seed ∈ keys → ¬ E.S.zeroNonce seed (getID E b'))
    (hfit : ∀ ds : List VkeyWitness, ds.length = n → (∀ d ∈ ds, WitnessSized d) →
      minFee b.minFeeA b.minFeeB (size (withWitnesses b.tx ds) + 8) < 2 ^ 64) :
    minFee b.minFeeA b.minFeeB (serialize b').length ≤ b'.tx.body.fee ∧ b'.tx.body.fee = f ∧
      ∀ w ∈ b'.tx.wits.vkeys, Verifies E (getID E b') w := by
  obtain ⟨rfl, hfix⟩ := calculateFee_frame k b b1 n f h
  obtain ⟨e1, e2, e3⟩ := signs_run E k keys _ _ h'
  have hs := run_signs E (· ∈ keys) k (keys.map Op.sign) _ _ h' (by
    intro key hx
    obtain ⟨key', h1, h2⟩ := List.mem_map.mp hx
    injection h2 with h2; subst h2; exact h1) (by intro w hw; simp [setFee, setBody, clearWitnessSet] at hw)
  have hpay := C77_pays k b _ n f h b'.tx.wits.vkeys
    (by rw [show (setFee b f).tx.wits.vkeys = [] from rfl] at e3; simp only [List.length_nil] at e3; omega)
    (fun w hw => (signs_verifies E _ b' w (hs w hw) hwf).2) hfit
  have hb' : withWitnesses (setFee b f).tx b'.tx.wits.vkeys = b'.tx := by
    unfold withWitnesses
    rw [← e1, ← e2]
  rw [hb'] at hpay
  refine ⟨?_, by rw [e1]; rfl, fun w hw => (signs_verifies E _ b' w (hs w hw) hwf).1 hz⟩
  rw [e1]; exact hpay

/-! ## Concrete cases -/

/-- A payment, signed, changed and signed again twice: one witness, valid for the final body. -/
example (E : Env) (seed : Bytes) : ∃ b, run E 12 {}
      [.addInput (List.replicate 32 7) 1, .addOutputEnterprise ⟨0x61, List.replicate 28 3⟩ 5 false,
       .sign (.ed seed), .addInput [1] 2, .setTtl 9, .sign (.ed seed), .balance 1, .sign (.ed seed)] = some b ∧
    b.tx.wits.vkeys = [⟨E.S.pub seed, E.S.sign seed (E.S.hash b.tx.body.serialize)⟩] ∧
    b.tx.body.inputs = [⟨List.replicate 32 7, 1⟩] ∧ b.tx.body.ttl = some 9 := by
  refine ⟨_, rfl, ?_, rfl, rfl⟩
  show replaceWitness (replaceWitness [] (E.S.pub seed) _) (E.S.pub seed) _ = _
  simp [replaceWitness]
  rfl

/-- The arguments of such a history are well-formed. -/
example : ∀ op ∈ [Op.addInput (List.replicate 32 7) 1, .addOutputEnterprise ⟨0x61, List.replicate 28 3⟩ 5 false,
    .sign (.ed (List.replicate 32 1)), .addInput [1] 2, .setTtl 9, .calculateFee 1, .balance 1], ArgsWF op := by
  intro op h
  fin_cases h <;> simp [ArgsWF, KeyWF]

end Cardano.BabbageBuilder
