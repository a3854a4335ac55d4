import Verif.Spec.ReadInto
import Verif.Props.LedgerTx

/-! # C84: reading bytes into an object that is already in use

Statements are about `deserialize` as a member function: what the object is afterwards, for every
object it was before, every byte string and every outcome. -/

namespace Cardano.Ledger

open Cardano Cardano.Cbor Cardano.Spec.Ledger Member

/-! ### The monad -/

section monad
variable {σ α β : Type}
theorem bind_apply (x : Member σ α) (f : α → Member σ β) (s : σ) :
    (x >>= f) s = match x s with
      | (s', .ok a) => f a s'
      | (s', .throw e) => (s', .throw e)
      | (s', .ub) => (s', .ub) := rfl
theorem pure_apply (a : α) (s : σ) : (pure a : Member σ α) s = (s, .ok a) := rfl
theorem eval_apply (x : Out α) (s : σ) : (eval x : Member σ α) s = (s, x) := rfl
theorem assign_apply (f : σ → σ) (s : σ) : assign f s = (f s, .ok ()) := rfl
end monad

/-- What a reading loop does: the elements before the first failure have been stored. -/
theorem forEach_store {σ α β : Type} (f : α → Out β) (g : β → σ → σ) : ∀ (l : List α) (s : σ),
    (∃ ys, mapOut f l = .ok ys ∧
      forEach l (fun i => (eval (f i) : Member σ β) >>= fun x => assign (g x)) s =
        (ys.foldl (fun s x => g x s) s, .ok ())) ∨
    (∃ ys e, mapOut f l = .throw e ∧ FailsAfter f l ys e ∧
      forEach l (fun i => (eval (f i) : Member σ β) >>= fun x => assign (g x)) s =
        (ys.foldl (fun s x => g x s) s, .throw e)) ∨
    (mapOut f l = .ub ∧
      (forEach l (fun i => (eval (f i) : Member σ β) >>= fun x => assign (g x)) s).2 = .ub) := by
  intro l
  induction l with
  | nil => intro s; exact Or.inl ⟨[], rfl, rfl⟩
  | cons a l ih =>
    intro s
    have step : forEach (a :: l) (fun i => (eval (f i) : Member σ β) >>= fun x => assign (g x)) s =
        match f a with
        | .ok x => forEach l (fun i => (eval (f i) : Member σ β) >>= fun x => assign (g x)) (g x s)
        | .throw e => (s, .throw e)
        | .ub => (s, .ub) := by
      simp only [forEach, bind_apply, eval_apply]
      cases f a <;> rfl
    rw [step]
    cases hf : f a with
    | throw e =>
      exact Or.inr (Or.inl ⟨[], e, by simp [mapOut, hf], ⟨[], a, l, rfl, rfl, hf⟩, rfl⟩)
    | ub => exact Or.inr (Or.inr ⟨by simp [mapOut, hf], rfl⟩)
    | ok x =>
      rcases ih (g x s) with ⟨ys, h1, h2⟩ | ⟨ys, e, h1, ⟨p, y, q, hl, hp, hy⟩, h2⟩ | ⟨h1, h2⟩
      · exact Or.inl ⟨x :: ys, by simp [mapOut, hf, h1], by simpa using h2⟩
      · exact Or.inr (Or.inl ⟨x :: ys, e, by simp [mapOut, hf, h1],
          ⟨a :: p, y, q, by simp [hl], by simp [mapOut, hf, hp], hy⟩, by simpa using h2⟩)
      · exact Or.inr (Or.inr ⟨by simp [mapOut, hf, h1], h2⟩)

theorem foldl_inputs (ys : List TxIn) : ∀ t : TxBody,
    ys.foldl (fun s x => { s with inputs := setInsert TxIn.lt x s.inputs }) t =
      { t with inputs := ys.foldl (fun s i => setInsert TxIn.lt i s) t.inputs } := by
  induction ys with
  | nil => intro t; rfl
  | cons y ys ih => intro t; simp only [List.foldl_cons]; rw [ih]

theorem foldl_outputs (ys : List TxOut) : ∀ t : TxBody,
    ys.foldl (fun s x => { s with outputs := s.outputs ++ [x] }) t = { t with outputs := t.outputs ++ ys } := by
  induction ys with
  | nil => intro t; simp
  | cons y ys ih => intro t; simp only [List.foldl_cons]; rw [ih]; simp

theorem foldl_certs (ys : List Certificate) : ∀ t : TxBody,
    ys.foldl (fun s x => { s with certificates := s.certificates ++ [x] }) t =
      { t with certificates := t.certificates ++ ys } := by
  induction ys with
  | nil => intro t; simp
  | cons y ys ih => intro t; simp only [List.foldl_cons]; rw [ih]; simp

theorem foldl_vkeys (ys : List VkeyWitness) : ∀ t : WitnessSet,
    ys.foldl (fun s x => { s with vkeys := s.vkeys ++ [x] }) t = { t with vkeys := t.vkeys ++ ys } := by
  induction ys with
  | nil => intro t; simp
  | cons y ys ih => intro t; simp only [List.foldl_cons]; rw [ih]; simp

/-! ### Transaction bodies, exactly -/

theorem intoInputs_spec (m : List Item) (t : TxBody) :
    (∃ ys, mapOut inputOf (arrayAt 0 m) = .ok ys ∧ TxBody.intoInputs m t =
        ({ t with inputs := ys.foldl (fun s i => setInsert TxIn.lt i s) [] }, .ok ())) ∨
    (∃ ys e, mapOut inputOf (arrayAt 0 m) = .throw e ∧ FailsAfter inputOf (arrayAt 0 m) ys e ∧
      TxBody.intoInputs m t = ({ t with inputs := ys.foldl (fun s i => setInsert TxIn.lt i s) [] }, .throw e)) ∨
    (mapOut inputOf (arrayAt 0 m) = .ub ∧ (TxBody.intoInputs m t).2 = .ub) := by
  have e0 : TxBody.intoInputs m t = forEach (arrayAt 0 m) (fun i => (eval (inputOf i) : Member TxBody TxIn) >>= fun x =>
      assign ((fun x t => { t with inputs := setInsert TxIn.lt x t.inputs }) x)) { t with inputs := [] } := rfl
  rw [e0]
  rcases forEach_store inputOf (fun x (t : TxBody) => { t with inputs := setInsert TxIn.lt x t.inputs })
      (arrayAt 0 m) { t with inputs := [] } with ⟨ys, h1, h2⟩ | ⟨ys, e, h1, h3, h2⟩ | ⟨h1, h2⟩
  · exact Or.inl ⟨ys, h1, by rw [h2, foldl_inputs]⟩
  · exact Or.inr (Or.inl ⟨ys, e, h1, h3, by rw [h2, foldl_inputs]⟩)
  · exact Or.inr (Or.inr ⟨h1, h2⟩)

theorem intoOutputs_spec (m : List Item) (t : TxBody) :
    (∃ ys, mapOut outputOf (arrayAt 1 m) = .ok ys ∧ TxBody.intoOutputs m t = ({ t with outputs := ys }, .ok ())) ∨
    (∃ ys e, mapOut outputOf (arrayAt 1 m) = .throw e ∧ FailsAfter outputOf (arrayAt 1 m) ys e ∧
      TxBody.intoOutputs m t = ({ t with outputs := ys }, .throw e)) ∨
    (mapOut outputOf (arrayAt 1 m) = .ub ∧ (TxBody.intoOutputs m t).2 = .ub) := by
  have e0 : TxBody.intoOutputs m t = forEach (arrayAt 1 m) (fun i => (eval (outputOf i) : Member TxBody TxOut) >>= fun x =>
      assign ((fun x t => { t with outputs := t.outputs ++ [x] }) x)) { t with outputs := [] } := rfl
  rw [e0]
  rcases forEach_store outputOf (fun x (t : TxBody) => { t with outputs := t.outputs ++ [x] })
      (arrayAt 1 m) { t with outputs := [] } with ⟨ys, h1, h2⟩ | ⟨ys, e, h1, h3, h2⟩ | ⟨h1, h2⟩
  · exact Or.inl ⟨ys, h1, by rw [h2, foldl_outputs]; simp⟩
  · exact Or.inr (Or.inl ⟨ys, e, h1, h3, by rw [h2, foldl_outputs]; simp⟩)
  · exact Or.inr (Or.inr ⟨h1, h2⟩)

theorem intoCertificates_spec (m : List Item) (t : TxBody) :
    (∃ ys, mapOut certOf (arrayAt 4 m) = .ok ys ∧ TxBody.intoCertificates m t = ({ t with certificates := ys }, .ok ())) ∨
    (∃ ys e, mapOut certOf (arrayAt 4 m) = .throw e ∧ FailsAfter certOf (arrayAt 4 m) ys e ∧
      TxBody.intoCertificates m t = ({ t with certificates := ys }, .throw e)) ∨
    (mapOut certOf (arrayAt 4 m) = .ub ∧ (TxBody.intoCertificates m t).2 = .ub) := by
  have e0 : TxBody.intoCertificates m t = forEach (arrayAt 4 m) (fun i => (eval (certOf i) : Member TxBody Certificate) >>= fun x =>
      assign ((fun x t => { t with certificates := t.certificates ++ [x] }) x)) { t with certificates := [] } := rfl
  rw [e0]
  rcases forEach_store certOf (fun x (t : TxBody) => { t with certificates := t.certificates ++ [x] })
      (arrayAt 4 m) { t with certificates := [] } with ⟨ys, h1, h2⟩ | ⟨ys, e, h1, h3, h2⟩ | ⟨h1, h2⟩
  · exact Or.inl ⟨ys, h1, by rw [h2, foldl_certs]; simp⟩
  · exact Or.inr (Or.inl ⟨ys, e, h1, h3, by rw [h2, foldl_certs]; simp⟩)
  · exact Or.inr (Or.inr ⟨h1, h2⟩)

theorem deref_ok_or_ub {α : Type} (x : Option α) : (∃ a, x = some a ∧ deref x = .ok a) ∨ (x = none ∧ deref x = .ub) := by
  cases x with
  | none => exact Or.inr ⟨rfl, rfl⟩
  | some a => exact Or.inl ⟨a, rfl, rfl⟩

theorem withdrawalLoopInto_spec : ∀ (l : List Item) (t : TxBody),
    (∃ ws, withdrawalLoop l t.withdrawals = .ok ws ∧ withdrawalLoopInto l t = ({ t with withdrawals := ws }, .ok ())) ∨
    (withdrawalLoop l t.withdrawals = .ub ∧ (withdrawalLoopInto l t).2 = .ub)
  | [], t => Or.inl ⟨t.withdrawals, by simp [withdrawalLoop], by simp [withdrawalLoopInto, pure_apply]⟩
  | [_], t => Or.inl ⟨t.withdrawals, by simp [withdrawalLoop], by simp [withdrawalLoopInto, pure_apply]⟩
  | k :: v :: rest, t => by
    rcases deref_ok_or_ub (asBstr k) with ⟨a, _, ha⟩ | ⟨_, ha⟩
    · rcases deref_ok_or_ub (asUint v) with ⟨n, _, hn⟩ | ⟨_, hn⟩
      · have := withdrawalLoopInto_spec rest { t with withdrawals := mapAssign bytesLt a n t.withdrawals }
        simpa [withdrawalLoop, withdrawalLoopInto, bind_apply, eval_apply, assign_apply, ha, hn] using this
      · exact Or.inr (by simp [withdrawalLoop, withdrawalLoopInto, bind_apply, eval_apply, ha, hn])
    · exact Or.inr (by simp [withdrawalLoop, withdrawalLoopInto, bind_apply, eval_apply, ha])

theorem intoWithdrawals_spec (m : List Item) (t : TxBody) :
    (∃ ws, withdrawalLoop (((lookup 5 m).bind asMap).getD []) [] = .ok ws ∧
      TxBody.intoWithdrawals m t = ({ t with withdrawals := ws, update := false }, .ok ())) ∨
    (withdrawalLoop (((lookup 5 m).bind asMap).getD []) [] = .ub ∧ (TxBody.intoWithdrawals m t).2 = .ub) := by
  rcases withdrawalLoopInto_spec (((lookup 5 m).bind asMap).getD []) { t with withdrawals := [] } with
    ⟨ws, h1, h2⟩ | ⟨h1, h2⟩
  · refine Or.inl ⟨ws, h1, ?_⟩
    simp only [TxBody.intoWithdrawals, bind_apply, assign_apply, h2]
  · refine Or.inr ⟨h1, ?_⟩
    simp only [TxBody.intoWithdrawals, bind_apply, assign_apply]
    generalize hr : withdrawalLoopInto (((lookup 5 m).bind asMap).getD []) { t with withdrawals := [] } = r at h2
    obtain ⟨r1, r2⟩ := r
    simp only at h2; subst h2; rfl

theorem hashAt_cases (m : List Item) : (∃ h, hashAt m = .ok h) ∨ hashAt m = .throw .invalidArgument := by
  unfold hashAt
  split
  · exact Or.inl ⟨none, rfl⟩
  · rename_i h _
    by_cases hl : h.length = 32
    · exact Or.inl ⟨some h, by simp [reqLen, hl]⟩
    · exact Or.inr (by simp [reqLen, hl])

theorem intoHash_spec (m : List Item) (t : TxBody) :
    (∃ h, hashAt m = .ok h ∧ TxBody.intoHash m t = ({ t with metadataHash := h }, .ok ())) ∨
    (hashAt m = .throw .invalidArgument ∧
      TxBody.intoHash m t = ({ t with metadataHash := none }, .throw .invalidArgument)) := by
  rcases hashAt_cases m with ⟨h, hh⟩ | hh
  · exact Or.inl ⟨h, hh, by simp [TxBody.intoHash, bind_apply, assign_apply, eval_apply, hh]⟩
  · exact Or.inr ⟨hh, by simp [TxBody.intoHash, bind_apply, assign_apply, eval_apply, hh]⟩

theorem bind_snd_ub {σ α β : Type} {x : Member σ α} {f : α → Member σ β} {s : σ} (h : (x s).2 = .ub) :
    ((x >>= f) s).2 = .ub := by
  rw [bind_apply]
  generalize x s = r at h
  obtain ⟨r1, r2⟩ := r
  simp only at h; subst h; rfl

theorem bind_of_ok {σ α β : Type} {x : Member σ α} {f : α → Member σ β} {s s' : σ} {a : α} (h : x s = (s', .ok a)) :
    (x >>= f) s = f a s' := by rw [bind_apply, h]

theorem bind_of_throw {σ α β : Type} {x : Member σ α} {f : α → Member σ β} {s s' : σ} {e : Exc}
    (h : x s = (s', .throw e)) : (x >>= f) s = (s', .throw e) := by rw [bind_apply, h]

/-- Every outcome of reading a body map into a body. -/
theorem TxBody.into_cases (m : List Item) (old : TxBody) :
    (∃ t, TxBody.deser m = .ok t ∧ TxBody.into m old = (t, .ok ())) ∨
    (∃ e o, TxBody.deser m = .throw e ∧ TxBody.into m old = (o, .throw e) ∧
      ((∃ ys, FailsAfter inputOf (arrayAt 0 m) ys e ∧
          o = { old with inputs := ys.foldl (fun s i => setInsert TxIn.lt i s) [] }) ∨
       (∃ ins ys, mapOut inputOf (arrayAt 0 m) = .ok ins ∧ FailsAfter outputOf (arrayAt 1 m) ys e ∧
          o = { old with inputs := ins.foldl (fun s i => setInsert TxIn.lt i s) [], outputs := ys }) ∨
       (∃ ins outs ys, mapOut inputOf (arrayAt 0 m) = .ok ins ∧ mapOut outputOf (arrayAt 1 m) = .ok outs ∧
          FailsAfter certOf (arrayAt 4 m) ys e ∧
          o = { old with inputs := ins.foldl (fun s i => setInsert TxIn.lt i s) [], outputs := outs,
                         fee := uintAt 2 m, ttl := uintAt 3 m, certificates := ys }) ∨
       (∃ ins outs certs ws, mapOut inputOf (arrayAt 0 m) = .ok ins ∧ mapOut outputOf (arrayAt 1 m) = .ok outs ∧
          mapOut certOf (arrayAt 4 m) = .ok certs ∧
          withdrawalLoop (((lookup 5 m).bind asMap).getD []) [] = .ok ws ∧ hashAt m = .throw e ∧
          o = { inputs := ins.foldl (fun s i => setInsert TxIn.lt i s) [], outputs := outs,
                fee := uintAt 2 m, ttl := uintAt 3 m, certificates := certs, withdrawals := ws,
                update := false, metadataHash := none }))) ∨
    (TxBody.deser m = .ub ∧ (TxBody.into m old).2 = .ub) := by
  unfold TxBody.into TxBody.deser
  rcases intoInputs_spec m old with ⟨ins, hi, hI⟩ | ⟨ys, e, hi, hf, hI⟩ | ⟨hi, hI⟩
  · rw [hi, bind_of_ok hI]
    rcases intoOutputs_spec m { old with inputs := ins.foldl (fun s i => setInsert TxIn.lt i s) [] } with
      ⟨outs, ho, hO⟩ | ⟨ys, e, ho, hf, hO⟩ | ⟨ho, hO⟩
    · rw [ho, bind_of_ok hO]
      rw [bind_of_ok (show TxBody.intoNumbers m _ = (_, Out.ok ()) from rfl)]
      rcases intoCertificates_spec m { old with
          inputs := ins.foldl (fun s i => setInsert TxIn.lt i s) [], outputs := outs, fee := uintAt 2 m,
          ttl := uintAt 3 m } with ⟨certs, hc, hC⟩ | ⟨ys, e, hc, hf, hC⟩ | ⟨hc, hC⟩
      · rw [hc, bind_of_ok hC]
        rcases intoWithdrawals_spec m { old with
            inputs := ins.foldl (fun s i => setInsert TxIn.lt i s) [], outputs := outs, fee := uintAt 2 m,
            ttl := uintAt 3 m, certificates := certs } with ⟨ws, hw, hW⟩ | ⟨hw, hW⟩
        · rw [hw, bind_of_ok hW]
          rcases intoHash_spec m { old with
              inputs := ins.foldl (fun s i => setInsert TxIn.lt i s) [], outputs := outs, fee := uintAt 2 m,
              ttl := uintAt 3 m, certificates := certs, withdrawals := ws, update := false } with
            ⟨h, hh, hH⟩ | ⟨hh, hH⟩
          · rw [hh, hH]; exact Or.inl ⟨_, rfl, rfl⟩
          · rw [hh, hH]
            exact Or.inr (Or.inl ⟨_, _, rfl, rfl, Or.inr (Or.inr (Or.inr
              ⟨ins, outs, certs, ws, rfl, rfl, rfl, rfl, rfl, rfl⟩))⟩)
        · rw [hw]
          exact Or.inr (Or.inr ⟨rfl, bind_snd_ub hW⟩)
      · rw [hc, bind_of_throw hC]
        exact Or.inr (Or.inl ⟨e, _, rfl, rfl, Or.inr (Or.inr (Or.inl ⟨ins, outs, ys, rfl, rfl, hf, rfl⟩))⟩)
      · rw [hc]
        exact Or.inr (Or.inr ⟨rfl, bind_snd_ub hC⟩)
    · rw [ho, bind_of_throw hO]
      exact Or.inr (Or.inl ⟨e, _, rfl, rfl, Or.inr (Or.inl ⟨ins, ys, rfl, hf, rfl⟩)⟩)
    · rw [ho]
      exact Or.inr (Or.inr ⟨rfl, bind_snd_ub hO⟩)
  · rw [hi, bind_of_throw hI]
    exact Or.inr (Or.inl ⟨e, _, rfl, rfl, Or.inl ⟨ys, hf, rfl⟩⟩)
  · rw [hi]
    exact Or.inr (Or.inr ⟨rfl, bind_snd_ub hI⟩)

/-! ### Agreement with the value-level model -/

theorem agreesArray {σ : Type} {f : List Item → Member σ Unit} {g : List Item → Out σ} {old : σ} (b : Bytes)
    (h : ∀ l, Agrees (f l old) (g l)) : Agrees (intoArray f b old) (deserializeArray g b) := by
  unfold intoArray deserializeArray
  cases parse b with
  | none => exact rfl
  | some i =>
    simp only []
    cases asArray i with
    | none => exact rfl
    | some l => exact h l

theorem agreesMap {σ : Type} {f : List Item → Member σ Unit} {g : List Item → Out σ} {old : σ} (b : Bytes)
    (h : ∀ l, Agrees (f l old) (g l)) : Agrees (intoMap f b old) (deserializeMap g b) := by
  unfold intoMap deserializeMap
  cases parse b with
  | none => exact rfl
  | some i =>
    simp only []
    cases asMap i with
    | none => exact rfl
    | some l => exact h l

theorem rational_agrees (n : Nat) (i : Item) (old : Rational) : Agrees (Rational.into n i old) (Rational.deser n i) := by
  unfold Rational.into Rational.deser
  by_cases hn : n = 30
  · simp only [hn, ne_eq, not_true_eq_false, if_false]
    rcases asArray i with _ | _ | ⟨a, _ | ⟨b, _ | ⟨c, l⟩⟩⟩ <;> try exact rfl
    simp only []
    rcases asUint a with _ | num <;> rcases asUint b with _ | den <;> try exact rfl
    by_cases hd : den = 0 <;> simp [Rational.store, bind_apply, assign_apply, eval_apply, Agrees, hd]
  · simp only [hn, ne_eq, not_false_eq_true, if_true]; exact rfl

theorem reqLen_cases (e : Exc) (n : Nat) (b : Bytes) :
    (b.length = n ∧ reqLen e n b = .ok b) ∨ (b.length ≠ n ∧ reqLen e n b = .throw e) := by
  by_cases h : b.length = n
  · exact Or.inl ⟨h, by simp [reqLen, h]⟩
  · exact Or.inr ⟨h, by simp [reqLen, h]⟩

theorem metadata_agrees (l : List Item) (old : PoolMetadata) : Agrees (PoolMetadata.into l old) (PoolMetadata.deser l) := by
  unfold PoolMetadata.into PoolMetadata.deser
  rcases l with _ | ⟨a, _ | ⟨b, _ | ⟨c, l⟩⟩⟩ <;> try exact rfl
  simp only []
  rcases asTstr a with _ | u <;> rcases asBstr b with _ | h <;> try exact rfl
  rcases reqLen_cases .invalidArgument 32 h with ⟨_, e⟩ | ⟨_, e⟩ <;> simp [PoolMetadata.store, bind_apply, assign_apply, eval_apply, Agrees, e]

theorem credential_agrees (l : List Item) (old : StakeCredential) :
    Agrees (StakeCredential.into l old) (StakeCredential.deser l) := by
  unfold StakeCredential.into StakeCredential.deser
  rcases l with _ | ⟨a, _ | ⟨b, _ | ⟨c, l⟩⟩⟩ <;> try exact rfl
  simp only []
  rcases asUint a with _ | t <;> rcases asBstr b with _ | c <;> try exact rfl
  rcases reqLen_cases .invalidArgument 28 c with ⟨_, e⟩ | ⟨_, e⟩ <;> cases ht : credTypeOf t <;>
    simp [StakeCredential.store, bind_apply, assign_apply, eval_apply, Agrees, e, ht]

theorem mirLoopInto_cases : ∀ (l : List Item) (old : MIR),
    (∃ es, mirLoop l = .ok es ∧ mirLoopInto l old = ({ old with creds := old.creds ++ es }, .ok ())) ∨
    (∃ es e, mirLoop l = .throw e ∧ mirLoopInto l old = ({ old with creds := old.creds ++ es }, .throw e)) ∨
    (mirLoop l = .ub ∧ (mirLoopInto l old).2 = .ub)
  | [], old => Or.inl ⟨[], rfl, by simp [mirLoopInto, pure_apply]⟩
  | [_], old => Or.inl ⟨[], rfl, by simp [mirLoopInto, pure_apply]⟩
  | k :: v :: rest, old => by
    rcases deref_ok_or_ub (asArray k) with ⟨arr, _, ha⟩ | ⟨_, ha⟩
    · cases hc : StakeCredential.deser arr with
      | throw e =>
        exact Or.inr (Or.inl ⟨[], e, by simp [mirLoop, ha, hc],
          by simp [mirLoopInto, bind_apply, eval_apply, ha, hc]⟩)
      | ub => exact Or.inr (Or.inr (by simp [mirLoop, mirLoopInto, bind_apply, eval_apply, ha, hc]))
      | ok c =>
        rcases deref_ok_or_ub (asUint v) with ⟨n, _, hn⟩ | ⟨_, hn⟩
        · have key : mirLoopInto (k :: v :: rest) old = mirLoopInto rest { old with creds := old.creds ++ [(c, n)] } := by
            simp [mirLoopInto, bind_apply, eval_apply, assign_apply, ha, hc, hn]
          rw [key]
          rcases mirLoopInto_cases rest { old with creds := old.creds ++ [(c, n)] } with
            ⟨es, h1, h2⟩ | ⟨es, e, h1, h2⟩ | ⟨h1, h2⟩
          · exact Or.inl ⟨(c, n) :: es, by simp [mirLoop, ha, hc, hn, h1], by rw [h2]; simp⟩
          · exact Or.inr (Or.inl ⟨(c, n) :: es, e, by simp [mirLoop, ha, hc, hn, h1], by rw [h2]; simp⟩)
          · exact Or.inr (Or.inr ⟨by simp [mirLoop, ha, hc, hn, h1], h2⟩)
        · exact Or.inr (Or.inr (by simp [mirLoop, mirLoopInto, bind_apply, eval_apply, ha, hc, hn]))
    · exact Or.inr (Or.inr (by simp [mirLoop, mirLoopInto, bind_apply, eval_apply, ha]))

theorem mir_agrees (l : List Item) (old : MIR) : Agrees (MIR.into l old) (MIR.deser old.creds l) := by
  unfold MIR.into MIR.deser
  rcases l with _ | ⟨a, _ | ⟨b, _ | ⟨c, l⟩⟩⟩ <;> try exact rfl
  simp only []
  rcases asUint a with _ | s <;> rcases asMap b with _ | kvs <;> try exact rfl
  simp only []
  cases hs : sourceOf s with
  | throw e => simp [MIR.store, bind_apply, eval_apply, hs, Agrees]
  | ub => simp [MIR.store, bind_apply, eval_apply, hs, Agrees]
  | ok src =>
    have key : MIR.store s kvs old = mirLoopInto kvs { old with source := src } := by
      simp [MIR.store, bind_apply, eval_apply, assign_apply, hs]
    rw [key]
    rcases mirLoopInto_cases kvs { old with source := src } with ⟨es, h1, h2⟩ | ⟨es, e, h1, h2⟩ | ⟨h1, h2⟩
    · simp [h1, h2, Agrees]
    · simp [h1, h2, Agrees]
    · simp [h1, h2, Agrees]

theorem output_agrees (l : List Item) (old : TxOut) : Agrees (TxOut.into l old) (TxOut.deser l) := by
  unfold TxOut.into TxOut.deser
  rcases l with _ | ⟨a, _ | ⟨b, _ | ⟨c, l⟩⟩⟩ <;> try exact rfl
  simp only []
  rcases asBstr a with _ | u <;> rcases asUint b with _ | h <;> exact rfl

theorem input_agrees (l : List Item) (old : TxIn) : Agrees (TxIn.into l old) (TxIn.deser l) := by
  unfold TxIn.into TxIn.deser
  rcases l with _ | ⟨a, _ | ⟨b, _ | ⟨c, l⟩⟩⟩ <;> try exact rfl
  simp only []
  rcases asBstr a with _ | t <;> rcases asUint b with _ | n <;> try exact rfl
  rcases reqLen_cases .invalidArgument 32 t with ⟨_, e⟩ | ⟨_, e⟩ <;> simp [TxIn.store, bind_apply, assign_apply, eval_apply, Agrees, e]

/-- The effect of "move the local object into `*this` unless `p`". -/
def moved {σ : Type} (p : Prop) [Decidable p] (old : σ) : Out σ → σ × Out Unit
  | .ok c => (if p then old else c, .ok ())
  | .throw e => (old, .throw e)
  | .ub => (old, .ub)

/-- "Read a local object; unless the type number is unknown, move it into `*this`." -/
theorem assign_unless {σ : Type} (x : Out σ) (p : Prop) [Decidable p] (old : σ) :
    ((eval x : Member σ σ) >>= fun c => if p then pure () else assign fun _ => c) old = moved p old x := by
  cases x with
  | ok c => by_cases hp : p <;> simp [bind_apply, eval_apply, hp, pure_apply, assign_apply, moved]
  | throw e => rfl
  | ub => rfl

theorem moved_agrees {σ : Type} {p : Prop} [Decidable p] (hp : ¬ p) (old : σ) (x : Out σ) : Agrees (moved p old x) x := by
  cases x <;> simp [moved, Agrees, hp]

theorem relay_agrees (l : List Item) (old : Relay) : Agrees (Relay.into l old) (Relay.deser old l) := by
  unfold Relay.into
  rw [assign_unless]
  rcases l with _ | ⟨t, _ | ⟨a, rest⟩⟩ <;> try exact rfl
  have e1 : ((t :: a :: rest).head?.bind asUint).getD 0 = (asUint t).getD 0 := rfl
  rw [e1]
  unfold Relay.deser; simp only []
  rcases asUint t with _ | _ | _ | _ | k
  · exact rfl
  · rcases rest with _ | ⟨b, _ | ⟨c, _ | ⟨d, rest⟩⟩⟩ <;> exact rfl
  · rcases rest with _ | ⟨b, _ | ⟨c, rest⟩⟩ <;> try exact rfl
    simp only []
    rcases asTstr b with _ | d <;> exact rfl
  · rcases rest with _ | ⟨b, rest⟩ <;> try exact rfl
    simp only []
    rcases asTstr a with _ | d <;> exact rfl
  · simp [Agrees, moved]

theorem certificate_agrees (l : List Item) (old : Certificate) : Agrees (Certificate.into l old) (Certificate.deser old l) := by
  unfold Certificate.into
  rw [assign_unless]
  rcases l with _ | ⟨t, _ | ⟨a, rest⟩⟩ <;> try exact rfl
  have e1 : ((t :: a :: rest).head?.bind asUint).getD 0 = (asUint t).getD 0 := rfl
  rw [e1]
  unfold Certificate.deser; simp only []
  rcases asUint t with _ | _ | _ | _ | _ | _ | _ | _ | k
  · exact rfl
  · exact moved_agrees (by simp) _ _
  · exact moved_agrees (by simp) _ _
  · exact moved_agrees (by simp) _ _
  · exact moved_agrees (by simp) _ _
  · exact moved_agrees (by simp) _ _
  · exact moved_agrees (by simp) _ _
  · exact moved_agrees (by simp) _ _
  · simp [Agrees, moved]

theorem script_agrees (l : List Item) (old : Script) : Agrees (Script.into l old) (Script.deser old l) := by
  unfold Script.into
  rw [assign_unless]
  rcases l with _ | ⟨t, _ | ⟨a, rest⟩⟩
  · simp [Script.deser, scriptData, Agrees, moved]
  · simp [Script.deser, scriptData, Agrees, moved]
  have e1 : ((t :: a :: rest).head?.bind asUint).getD 0 = (asUint t).getD 0 := rfl
  rw [e1]
  unfold Script.deser; simp only []
  rcases ht : asUint t with _ | _ | _ | _ | _ | k
  · exact moved_agrees (by simp) _ _
  · exact moved_agrees (by simp) _ _
  · exact moved_agrees (by simp) _ _
  · exact moved_agrees (by simp) _ _
  · exact moved_agrees (by simp) _ _
  · simp [scriptData, ht, Agrees, moved]

theorem body_agrees (m : List Item) (old : TxBody) : Agrees (TxBody.into m old) (TxBody.deser m) := by
  rcases TxBody.into_cases m old with ⟨t, h1, h2⟩ | ⟨e, o, h1, h2, _⟩ | ⟨h1, h2⟩
  · rw [h1, h2]; exact rfl
  · rw [h1, h2]; exact rfl
  · rw [h1]; exact h2

theorem get_no_throw (l : List Item) (i : Nat) : (∃ x, Cbor.get l i = .ok x) ∨ Cbor.get l i = .ub := by
  unfold Cbor.get
  cases l[i]? with
  | none => exact Or.inr rfl
  | some x => exact Or.inl ⟨x, rfl⟩

theorem byteArray_no_throw (n : Nat) (b : Bytes) : (∃ x, byteArray n b = .ok x) ∨ byteArray n b = .ub := by
  unfold byteArray
  split
  · exact Or.inl ⟨_, rfl⟩
  · exact Or.inr rfl

theorem vkeyOf_no_throw (l : List Item) (e : Exc) : vkeyOf l ≠ .throw e := by
  unfold vkeyOf
  rcases get_no_throw l 0 with ⟨i0, h0⟩ | h0 <;> simp only [h0, Out.ok_bind, Out.ub_bind, ne_eq, reduceCtorEq, not_false_eq_true]
  rcases deref_ok_or_ub (asBstr i0) with ⟨k, _, hk⟩ | ⟨_, hk⟩ <;> simp only [hk, Out.ok_bind, Out.ub_bind, reduceCtorEq, not_false_eq_true]
  rcases byteArray_no_throw 32 k with ⟨k', hk'⟩ | hk' <;> simp only [hk', Out.ok_bind, Out.ub_bind, reduceCtorEq, not_false_eq_true]
  rcases get_no_throw l 1 with ⟨i1, h1⟩ | h1 <;> simp only [h1, Out.ok_bind, Out.ub_bind, reduceCtorEq, not_false_eq_true]
  rcases deref_ok_or_ub (asBstr i1) with ⟨s, _, hs⟩ | ⟨_, hs⟩ <;> simp only [hs, Out.ok_bind, Out.ub_bind, reduceCtorEq, not_false_eq_true]
  rcases byteArray_no_throw 64 s with ⟨s', hs'⟩ | hs' <;> simp only [hs', Out.ok_bind, Out.ub_bind, reduceCtorEq, not_false_eq_true]

/-- Reading a witness map never throws. -/
theorem witnesses_cases (m : List Item) (old : WitnessSet) :
    (∃ w, WitnessSet.deser m = .ok w ∧ WitnessSet.into m old = (w, .ok ())) ∨
    (WitnessSet.deser m = .ub ∧ (WitnessSet.into m old).2 = .ub) := by
  have e0 : WitnessSet.into m old =
      ((forEach ((arrayAt 0 m).filterMap asArray) (fun l => (eval (vkeyOf l) : Member WitnessSet VkeyWitness) >>= fun x =>
        assign ((fun x w => { w with vkeys := w.vkeys ++ [x] }) x))) >>= fun _ =>
        assign (fun w => { w with multisig := [] }) >>= fun _ => assign (fun w => { w with bootstrap := [] }))
        { old with vkeys := [] } := rfl
  rw [e0]
  unfold WitnessSet.deser
  rcases forEach_store vkeyOf (fun x (w : WitnessSet) => { w with vkeys := w.vkeys ++ [x] })
      ((arrayAt 0 m).filterMap asArray) { old with vkeys := [] } with ⟨ys, h1, h2⟩ | ⟨ys, e, h1, ⟨_, x, _, _, _, hx⟩, h2⟩ | ⟨h1, h2⟩
  · refine Or.inl ⟨{ vkeys := ys, multisig := [], bootstrap := [] }, by rw [h1]; rfl, ?_⟩
    rw [bind_of_ok h2, foldl_vkeys]; simp [bind_apply, assign_apply]
  · exact absurd hx (vkeyOf_no_throw x e)
  · exact Or.inr ⟨by rw [h1]; rfl, bind_snd_ub h2⟩

theorem witnesses_agrees (m : List Item) (old : WitnessSet) : Agrees (WitnessSet.into m old) (WitnessSet.deser m) := by
  rcases witnesses_cases m old with ⟨w, h1, h2⟩ | ⟨h1, h2⟩
  · rw [h1, h2]; exact rfl
  · rw [h1]; exact h2

theorem transaction_agrees (l : List Item) (old : Tx) : Agrees (Tx.into l old) (Tx.deser old l) := by
  unfold Tx.into Tx.deser Tx.intoBody Tx.intoWits bodyAt witsAt
  have hw : ∀ t : Tx, Agrees ((match (l[1]?).bind asMap with
      | none => pure ()
      | some m => onField Tx.wits (fun w t => { t with wits := w }) (WitnessSet.into m) : Member Tx Unit) t)
      ((match (l[1]?).bind asMap with
        | none => Out.ok t.wits
        | some m => WitnessSet.deser m) >>= fun w => Out.ok { body := t.body, wits := w, metadata := t.metadata }) := by
    intro t
    cases (l[1]?).bind asMap with
    | none => exact rfl
    | some m =>
      rcases witnesses_cases m t.wits with ⟨w, h1, h2⟩ | ⟨h1, h2⟩
      · simp [onField, h1, h2, Agrees]
      · simp [onField, h1, h2, Agrees]
  cases (l[0]?).bind asMap with
  | none => exact hw old
  | some m =>
    rcases TxBody.into_cases m old.body with ⟨t, h1, h2⟩ | ⟨e, o, h1, h2, _⟩ | ⟨h1, h2⟩
    · simp only []
      rw [bind_of_ok (show onField Tx.body (fun b t => { t with body := b }) (TxBody.into m) old =
        ({ old with body := t }, .ok ()) by simp [onField, h2]), h1]
      exact hw { old with body := t }
    · simp only []
      rw [bind_of_throw (show onField Tx.body (fun b t => { t with body := b }) (TxBody.into m) old =
        ({ old with body := o }, .throw e) by simp [onField, h2]), h1]
      exact rfl
    · simp only []
      rw [h1]
      exact bind_snd_ub (show (onField Tx.body (fun b t => { t with body := b }) (TxBody.into m) old).2 = .ub by
        simp [onField, h2])

/-! ### C84 -/

/-- **C84** (what is read): for every object and every byte string, `deserialize` as a sequence of
assignments returns, throws or is undefined exactly as the value-level model of C43-C46 and C65 says, and
when it returns, the object is the value of that model. -/
theorem C84_agrees (b : Bytes) :
    (∀ old, Agrees (intoTag Rational.into b old) (Rational.deserialize b)) ∧
    (∀ old, Agrees (intoArray PoolMetadata.into b old) (PoolMetadata.deserialize b)) ∧
    (∀ old, Agrees (intoArray StakeCredential.into b old) (StakeCredential.deserialize b)) ∧
    (∀ old, Agrees (intoArray MIR.into b old) (MIR.deserialize old.creds b)) ∧
    (∀ old, Agrees (intoArray TxIn.into b old) (TxIn.deserialize b)) ∧
    (∀ old, Agrees (intoArray TxOut.into b old) (TxOut.deserialize b)) ∧
    (∀ old, Agrees (intoArray Relay.into b old) (Relay.deserialize old b)) ∧
    (∀ old, Agrees (intoArray Certificate.into b old) (Certificate.deserialize old b)) ∧
    (∀ old, Agrees (intoArray Script.into b old) (Script.deserialize old b)) ∧
    (∀ old, Agrees (intoMap TxBody.into b old) (TxBody.deserialize b)) ∧
    (∀ old, Agrees (intoMap WitnessSet.into b old) (WitnessSet.deserialize b)) ∧
    (∀ old, Agrees (intoArray Tx.into b old) (Tx.deserialize old b)) := by
  refine ⟨fun old => ?_, fun old => agreesArray b (metadata_agrees · old), fun old => agreesArray b (credential_agrees · old),
    fun old => agreesArray b (mir_agrees · old), fun old => agreesArray b (input_agrees · old),
    fun old => agreesArray b (output_agrees · old), fun old => agreesArray b (relay_agrees · old),
    fun old => agreesArray b (certificate_agrees · old), fun old => agreesArray b (script_agrees · old),
    fun old => agreesMap b (body_agrees · old), fun old => agreesMap b (witnesses_agrees · old),
    fun old => agreesArray b (transaction_agrees · old)⟩
  unfold Rational.deserialize deserializeTag intoTag
  cases parse b with
  | none => exact rfl
  | some i => cases i <;> first | exact rational_agrees _ _ old | exact rfl

theorem replaces_of_agrees {σ : Type} {f : Member σ Unit} {x : Out σ} (h : ∀ old, Agrees (f old) x) : Replaces f := by
  intro old old' o ho
  have h1 := h old; have h2 := h old'
  cases x with
  | ok v =>
    simp only [Agrees] at h1 h2
    rw [h1] at ho
    rw [h2]; exact ho
  | throw e => simp only [Agrees] at h1; rw [ho] at h1; exact absurd h1 (by simp)
  | ub => simp only [Agrees] at h1; rw [ho] at h1; exact absurd h1 (by simp)

/-- **C84** (nothing of the old object survives): for these seven types a successful read gives the same
object whatever the object was before. -/
theorem C84_replaces (b : Bytes) :
    Replaces (intoTag Rational.into b) ∧ Replaces (intoArray PoolMetadata.into b) ∧
    Replaces (intoArray StakeCredential.into b) ∧ Replaces (intoArray TxIn.into b) ∧
    Replaces (intoArray TxOut.into b) ∧ Replaces (intoMap TxBody.into b) ∧ Replaces (intoMap WitnessSet.into b) := by
  obtain ⟨h1, h2, h3, _, h5, h6, _, _, _, h10, h11, _⟩ := C84_agrees b
  exact ⟨replaces_of_agrees h1, replaces_of_agrees h2, replaces_of_agrees h3, replaces_of_agrees h5,
    replaces_of_agrees h6, replaces_of_agrees h10, replaces_of_agrees h11⟩

theorem keepsArray {σ : Type} {f : List Item → Member σ Unit} (b : Bytes) (h : ∀ l, KeepsOnThrow (f l)) :
    KeepsOnThrow (intoArray f b) := by
  intro old o e hx
  unfold intoArray at hx
  cases hp : parse b with
  | none => rw [hp] at hx; exact (Prod.mk.inj hx).1.symm
  | some i =>
    rw [hp] at hx
    simp only [] at hx
    cases ha : asArray i with
    | none => rw [ha] at hx; exact (Prod.mk.inj hx).1.symm
    | some l => rw [ha] at hx; exact h l old o e hx

theorem moved_keeps {σ : Type} {p : Prop} [Decidable p] {old o : σ} {x : Out σ} {e : Exc}
    (h : moved p old x = (o, .throw e)) : o = old := by
  cases x with
  | ok c => simp [moved] at h
  | throw e' => simp only [moved, Prod.mk.injEq] at h; exact h.1.symm
  | ub => simp [moved] at h

/-- **C84** (strong exception guarantee): inputs, outputs, relays, certificates, scripts and witness sets
are left as they were by a read that throws.
Missing: the other types, for which it is false of the code (the theorems below give the object left
behind). -/
theorem C84_failed_read_keeps_partial (b : Bytes) :
    KeepsOnThrow (intoArray TxIn.into b) ∧ KeepsOnThrow (intoArray TxOut.into b) ∧
    KeepsOnThrow (intoArray Relay.into b) ∧ KeepsOnThrow (intoArray Certificate.into b) ∧
    KeepsOnThrow (intoArray Script.into b) ∧ KeepsOnThrow (intoMap WitnessSet.into b) := by
  refine ⟨keepsArray b ?_, keepsArray b ?_, keepsArray b ?_, keepsArray b ?_, keepsArray b ?_, ?_⟩
  · intro l old o e h
    unfold TxIn.into at h
    rcases l with _ | ⟨x, _ | ⟨y, _ | ⟨z, l⟩⟩⟩ <;> try exact (Prod.mk.inj h).1.symm
    simp only [] at h
    revert h
    rcases asBstr x with _ | t <;> rcases asUint y with _ | n <;> intro h <;> try exact (Prod.mk.inj h).1.symm
    rcases reqLen_cases .invalidArgument 32 t with ⟨_, e'⟩ | ⟨_, e'⟩
    · simp [TxIn.store, bind_apply, assign_apply, eval_apply, e'] at h
    · simp [TxIn.store, bind_apply, assign_apply, eval_apply, e'] at h; exact h.1.symm
  · intro l old o e h
    unfold TxOut.into at h
    rcases l with _ | ⟨x, _ | ⟨y, _ | ⟨z, l⟩⟩⟩ <;> try exact (Prod.mk.inj h).1.symm
    simp only [] at h
    revert h
    rcases asBstr x with _ | t <;> rcases asUint y with _ | n <;> intro h <;> try exact (Prod.mk.inj h).1.symm
    simp [TxOut.store, bind_apply, assign_apply] at h
  · intro l old o e h; unfold Relay.into at h; rw [assign_unless] at h; exact moved_keeps h
  · intro l old o e h; unfold Certificate.into at h; rw [assign_unless] at h; exact moved_keeps h
  · intro l old o e h; unfold Script.into at h; rw [assign_unless] at h; exact moved_keeps h
  · intro old o e hx
    unfold intoMap at hx
    cases hp : parse b with
    | none => rw [hp] at hx; exact (Prod.mk.inj hx).1.symm
    | some i =>
      rw [hp] at hx
      simp only [] at hx
      cases ha : asMap i with
      | none => rw [ha] at hx; exact (Prod.mk.inj hx).1.symm
      | some m =>
        rw [ha] at hx
        simp only [] at hx
        rcases witnesses_cases m old with ⟨w, _, h2⟩ | ⟨_, h2⟩
        · rw [h2] at hx; exact absurd (Prod.mk.inj hx).2 (by simp)
        · rw [hx] at h2; exact absurd h2 (by simp)

/-- The bytes hold an array of at least two elements whose first is a type number `n` or larger. -/
def TypeFrom (n : Nat) (b : Bytes) : Prop :=
  ∃ i t a l k, parse b = some i ∧ asArray i = some (t :: a :: l) ∧ asUint t = some k ∧ n ≤ k

/-- A successful read of such a variant gives a new object exactly when the type number is known; an
unknown number is accepted and leaves the old object. -/
theorem variant_replaces {σ : Type} (n : Nat) (hn : 0 < n) (g : List Item → Out σ) (b : Bytes) (u v : σ) (huv : u ≠ v)
    (hg : ∀ t a l k, asUint t = some k → n ≤ k → ∃ c, g (t :: a :: l) = .ok c)
    (hs : ∀ l c, g l = .ok c → ∃ t a l' k, l = t :: a :: l' ∧ asUint t = some k) :
    Replaces (intoArray (fun l => eval (g l) >>= fun c =>
      if n ≤ (l.head?.bind asUint).getD 0 then pure () else assign fun _ => c : List Item → Member σ Unit) b) ↔
      ¬ TypeFrom n b := by
  have key : ∀ l old, (eval (g l) >>= fun c => if n ≤ (l.head?.bind asUint).getD 0 then pure () else assign fun _ => c :
      Member σ Unit) old = moved (n ≤ (l.head?.bind asUint).getD 0) old (g l) := fun l old => assign_unless _ _ _
  constructor
  · rintro h ⟨i, t, a, l, k, hp, ha, hk, hnk⟩
    obtain ⟨c, hc⟩ := hg t a l k hk hnk
    have val : ∀ old : σ, intoArray (fun l => eval (g l) >>= fun c =>
        if n ≤ (l.head?.bind asUint).getD 0 then pure () else assign fun _ => c : List Item → Member σ Unit) b old =
        (old, .ok ()) := by
      intro old
      unfold intoArray
      rw [hp]; simp only []; rw [ha]; simp only []
      rw [key, hc]
      simp [moved, hk, hnk]
    have := h u v u (val u)
    rw [val v] at this
    exact huv (Prod.mk.inj this).1.symm
  · intro hk old old' o ho
    unfold intoArray at ho ⊢
    cases hp : parse b with
    | none => rw [hp] at ho; exact absurd (Prod.mk.inj ho).2 (by simp)
    | some i =>
      rw [hp] at ho
      simp only [] at ho ⊢
      cases ha : asArray i with
      | none => rw [ha] at ho; exact absurd (Prod.mk.inj ho).2 (by simp)
      | some l =>
        rw [ha] at ho
        simp only [] at ho ⊢
        rw [key] at ho ⊢
        cases hgl : g l with
        | throw e => rw [hgl] at ho; exact absurd (Prod.mk.inj ho).2 (by simp)
        | ub => rw [hgl] at ho; exact absurd (Prod.mk.inj ho).2 (by simp)
        | ok c =>
          rw [hgl] at ho
          obtain ⟨t, a, l', k, rfl, hkt⟩ := hs l c hgl
          have hlt : ¬ n ≤ k := fun hnk => hk ⟨i, t, a, l', k, hp, ha, hkt, hnk⟩
          simp only [moved, List.head?_cons, Option.bind_some, hkt, Option.getD_some, hlt, if_false] at ho ⊢
          exact ho

/-- **C84** (variants): a successful read of a relay, certificate or script replaces the object exactly
when the type number in the bytes is one the library knows; any other number is accepted silently and the
old object stays. -/
theorem C84_variants_replace_iff (b : Bytes) :
    (Replaces (intoArray Relay.into b) ↔ ¬ TypeFrom 3 b) ∧
    (Replaces (intoArray Certificate.into b) ↔ ¬ TypeFrom 7 b) ∧
    (Replaces (intoArray Script.into b) ↔ ¬ TypeFrom 4 b) := by
  refine ⟨variant_replaces 3 (by omega) (Relay.deser .empty) b .empty (.multi []) (by simp) ?_ ?_,
    variant_replaces 7 (by omega) (Certificate.deser .empty) b .empty (.poolRetire [] 0) (by simp) ?_ ?_,
    variant_replaces 4 (by omega) scriptData b .empty (.pubkey []) (by simp) ?_ ?_⟩
  · intro t a l k hk h
    obtain ⟨k, rfl⟩ : ∃ j, k = j + 3 := ⟨k - 3, by omega⟩
    exact ⟨.empty, by simp [Relay.deser, hk]⟩
  · intro l c h
    rcases l with _ | ⟨t, _ | ⟨a, l⟩⟩
    · simp [Relay.deser] at h
    · simp [Relay.deser] at h
    · cases hk : asUint t with
      | none => simp [Relay.deser, hk] at h
      | some k => exact ⟨t, a, l, k, rfl, hk⟩
  · intro t a l k hk h
    obtain ⟨k, rfl⟩ : ∃ j, k = j + 7 := ⟨k - 7, by omega⟩
    exact ⟨.empty, by simp [Certificate.deser, hk]⟩
  · intro l c h
    rcases l with _ | ⟨t, _ | ⟨a, l⟩⟩
    · simp [Certificate.deser] at h
    · simp [Certificate.deser] at h
    · cases hk : asUint t with
      | none => simp [Certificate.deser, hk] at h
      | some k => exact ⟨t, a, l, k, rfl, hk⟩
  · intro t a l k hk h
    obtain ⟨k, rfl⟩ : ∃ j, k = j + 4 := ⟨k - 4, by omega⟩
    exact ⟨.empty, by simp [scriptData, hk]⟩
  · intro l c h
    rcases l with _ | ⟨t, _ | ⟨a, l⟩⟩
    · simp [scriptData] at h
    · simp [scriptData] at h
    · cases hk : asUint t with
      | none => simp [scriptData, hk] at h
      | some k => exact ⟨t, a, l, k, rfl, hk⟩

theorem intoArray_enc {σ : Type} (f : List Item → Member σ Unit) (l : List Item) (rest : Bytes) (h : WF (.array l)) :
    intoArray f (encArray l ++ rest) = f l := by
  unfold intoArray encArray
  rw [parse_enc_append _ h]
  rfl

theorem intoMap_enc {σ : Type} (f : List Item → Member σ Unit) (l : List Item) (rest : Bytes) (h : WF (.map l)) :
    intoMap f (encMap l ++ rest) = f l := by
  unfold intoMap encMap
  rw [parse_enc_append _ h]
  rfl

/-- **C84** is false of the code: reading the bytes of a reward certificate body into an object that has
entries appends to them, so reading twice doubles the payments. -/
theorem C84_rewards_accumulate (old m : MIR) (h : MirRep m) (rest : Bytes) :
    intoArray MIR.into (m.serialize ++ rest) old = (⟨m.source, old.creds ++ m.creds⟩, .ok ()) := by
  have h1 := (C84_agrees (m.serialize ++ rest)).2.2.2.1 old
  rw [C44_mir old.creds m h rest] at h1
  exact h1

/-- **C84** is false of the code: a failed read of a fraction leaves an object with denominator 0. -/
theorem C84_rational_zero_denominator (n : Nat) (hn : U64 n) (old : Rational) (rest : Bytes) :
    intoTag Rational.into (Rational.serialize ⟨n, 0⟩ ++ rest) old = (⟨n, 0⟩, .throw .runtimeError) := by
  have hw := rat_wf ⟨n, 0⟩ ⟨hn, by simp [U64]⟩
  unfold intoTag Rational.serialize
  rw [parse_enc_append _ hw]
  simp [Rational.ser, Rational.into, Rational.store, bind_apply, assign_apply, eval_apply, asArray, untag, asUint]

/-- **C84** (fractions): that is the only way a failed read changes the object. -/
theorem C84_rational_failed (b : Bytes) (old o : Rational) (e : Exc) (h : intoTag Rational.into b old = (o, .throw e)) :
    o = old ∨ ∃ i x y, parse b = some (.tag 30 i) ∧ asArray i = some [x, y] ∧ asUint x = some o.num ∧
      asUint y = some 0 ∧ o.den = 0 := by
  unfold intoTag at h
  cases hp : parse b with
  | none => rw [hp] at h; exact Or.inl (Prod.mk.inj h).1.symm
  | some i =>
    rw [hp] at h
    cases i with
    | tag n i =>
      simp only [] at h
      unfold Rational.into at h
      by_cases hn : n = 30
      · subst hn
        simp only [ne_eq, not_true_eq_false, if_false] at h
        revert h
        rcases ha : asArray i with _ | _ | ⟨x, _ | ⟨y, _ | ⟨z, l⟩⟩⟩ <;> intro h <;> try exact Or.inl (Prod.mk.inj h).1.symm
        simp only [] at h
        revert h
        rcases hx : asUint x with _ | num <;> rcases hy : asUint y with _ | den <;> intro h <;>
          try exact Or.inl (Prod.mk.inj h).1.symm
        by_cases hd : den = 0
        · subst hd
          simp only [Rational.store, bind_apply, assign_apply, eval_apply, if_true] at h
          have := (Prod.mk.inj h).1
          subst this
          exact Or.inr ⟨i, x, y, rfl, ha, hx, hy, rfl⟩
        · simp [Rational.store, bind_apply, assign_apply, eval_apply, hd] at h
      · simp only [hn, ne_eq, not_false_eq_true, if_true] at h
        exact Or.inl (Prod.mk.inj h).1.symm
    | _ => exact Or.inl (Prod.mk.inj h).1.symm

/-- **C84** is false of the code: pool metadata whose hash has the wrong size is refused, but the new URL
is already paired with the old hash. -/
theorem C84_metadata_mixed (u h : Bytes) (hu : Fits u) (hh : Fits h) (hl : h.length ≠ 32) (old : PoolMetadata) (rest : Bytes) :
    intoArray PoolMetadata.into (PoolMetadata.serialize ⟨u, h⟩ ++ rest) old = (⟨u, old.hash⟩, .throw .invalidArgument) := by
  unfold PoolMetadata.serialize
  rw [intoArray_enc _ _ _ (by
    refine WF.array (by simp [PoolMetadata.ser]) ?_
    intro i hi
    simp only [PoolMetadata.ser, List.mem_cons, List.not_mem_nil, or_false] at hi
    rcases hi with rfl | rfl
    · exact WF.tstr (fits_lt hu)
    · exact WF.bstr (fits_lt hh))]
  simp [PoolMetadata.ser, PoolMetadata.into, asTstr, asBstr, untag, PoolMetadata.store, bind_apply, assign_apply,
    eval_apply, reqLen, hl]

/-- **C84** is false of the code: likewise a credential's new type with the old hash. -/
theorem C84_credential_mixed (t : CredType) (c : Bytes) (hc : Fits c) (hl : c.length ≠ 28) (old : StakeCredential)
    (rest : Bytes) :
    intoArray StakeCredential.into (StakeCredential.serialize ⟨t, c⟩ ++ rest) old =
      (⟨t, old.cred⟩, .throw .invalidArgument) := by
  unfold StakeCredential.serialize
  rw [intoArray_enc _ _ _ (by
    refine WF.array (by simp [StakeCredential.ser]) ?_
    intro i hi
    simp only [StakeCredential.ser, List.mem_cons, List.not_mem_nil, or_false] at hi
    rcases hi with rfl | rfl
    · refine WF.uint ?_; cases t <;> simp [CredType.num]
    · exact WF.bstr (fits_lt hc))]
  cases t <;> simp [StakeCredential.ser, StakeCredential.into, asUint, asBstr, untag, StakeCredential.store, bind_apply,
    assign_apply, eval_apply, reqLen, hl, credTypeOf, CredType.num]

/-- **C84** (bodies, exactly): after a failed read the fields before the one that could not be read are the
new ones, that field holds the elements before the bad one, and the fields after it are the old ones (the
metadata hash, when it is the one that fails, is gone). -/
theorem C84_body_failed (b : Bytes) (old o : TxBody) (e : Exc) (h : intoMap TxBody.into b old = (o, .throw e)) :
    o = old ∨ ∃ i m, parse b = some i ∧ asMap i = some m ∧
      ((∃ ys, FailsAfter inputOf (arrayAt 0 m) ys e ∧
          o = { old with inputs := ys.foldl (fun s i => setInsert TxIn.lt i s) [] }) ∨
       (∃ ins ys, mapOut inputOf (arrayAt 0 m) = .ok ins ∧ FailsAfter outputOf (arrayAt 1 m) ys e ∧
          o = { old with inputs := ins.foldl (fun s i => setInsert TxIn.lt i s) [], outputs := ys }) ∨
       (∃ ins outs ys, mapOut inputOf (arrayAt 0 m) = .ok ins ∧ mapOut outputOf (arrayAt 1 m) = .ok outs ∧
          FailsAfter certOf (arrayAt 4 m) ys e ∧
          o = { old with inputs := ins.foldl (fun s i => setInsert TxIn.lt i s) [], outputs := outs,
                         fee := uintAt 2 m, ttl := uintAt 3 m, certificates := ys }) ∨
       (∃ ins outs certs ws, mapOut inputOf (arrayAt 0 m) = .ok ins ∧ mapOut outputOf (arrayAt 1 m) = .ok outs ∧
          mapOut certOf (arrayAt 4 m) = .ok certs ∧
          withdrawalLoop (((lookup 5 m).bind asMap).getD []) [] = .ok ws ∧ hashAt m = .throw e ∧
          o = { inputs := ins.foldl (fun s i => setInsert TxIn.lt i s) [], outputs := outs,
                fee := uintAt 2 m, ttl := uintAt 3 m, certificates := certs, withdrawals := ws,
                update := false, metadataHash := none })) := by
  unfold intoMap at h
  cases hp : parse b with
  | none => rw [hp] at h; exact Or.inl (Prod.mk.inj h).1.symm
  | some i =>
    rw [hp] at h
    simp only [] at h
    cases ha : asMap i with
    | none => rw [ha] at h; exact Or.inl (Prod.mk.inj h).1.symm
    | some m =>
      rw [ha] at h
      simp only [] at h
      rcases TxBody.into_cases m old with ⟨t, _, h2⟩ | ⟨e', o', _, h2, h3⟩ | ⟨_, h2⟩
      · rw [h2] at h; exact absurd (Prod.mk.inj h).2 (by simp)
      · rw [h2] at h
        obtain ⟨rfl, h5⟩ := Prod.mk.inj h
        obtain rfl : e' = e := by injection h5
        exact Or.inr ⟨i, m, rfl, ha, h3⟩
      · rw [h] at h2; exact absurd h2 (by simp)

/-- Bytes of a body map with no inputs and an output that is not a pair. -/
def badOutputBody : Bytes := enc (.map [.uint 0, .array [], .uint 1, .array [.array []]])

/-- **C84** is false of the code: a failed read can leave a body that is neither the old one nor one in the
bytes: here inputs and outputs are gone and everything else is kept, whatever the old body was. -/
theorem C84_body_mixed (old : TxBody) :
    intoMap TxBody.into badOutputBody old = ({ old with inputs := [], outputs := [] }, .throw .runtimeError) := by
  have hp : parse badOutputBody = some (.map [.uint 0, .array [], .uint 1, .array [.array []]]) := by rfl
  unfold intoMap
  rw [hp]
  rfl

/-- **C84** (transactions, failure): a failed read leaves the witnesses and the metadata as they were, and
the body as `C84_body_failed` says. -/
theorem C84_transaction_failed (b : Bytes) (old o : Tx) (e : Exc) (h : intoArray Tx.into b old = (o, .throw e)) :
    o.wits = old.wits ∧ o.metadata = old.metadata ∧
    (o.body = old.body ∨ ∃ m, TxBody.into m old.body = (o.body, .throw e)) := by
  unfold intoArray at h
  cases hp : parse b with
  | none => rw [hp] at h; obtain ⟨rfl, _⟩ := Prod.mk.inj h; exact ⟨rfl, rfl, Or.inl rfl⟩
  | some i =>
    rw [hp] at h
    simp only [] at h
    cases ha : asArray i with
    | none => rw [ha] at h; obtain ⟨rfl, _⟩ := Prod.mk.inj h; exact ⟨rfl, rfl, Or.inl rfl⟩
    | some l =>
      rw [ha] at h
      simp only [] at h
      unfold Tx.into Tx.intoBody Tx.intoWits at h
      have hw : ∀ t : Tx, ((match (l[1]?).bind asMap with
          | none => pure ()
          | some m => onField Tx.wits (fun w t => { t with wits := w }) (WitnessSet.into m) : Member Tx Unit) t).2 ≠ .throw e := by
        intro t
        cases (l[1]?).bind asMap with
        | none => simp [pure_apply]
        | some m =>
          rcases witnesses_cases m t.wits with ⟨w, _, h2⟩ | ⟨_, h2⟩ <;> simp [onField, h2]
      revert h
      cases hm : (l[0]?).bind asMap with
      | none =>
        intro h
        exact absurd (congrArg Prod.snd h) (hw old)
      | some m =>
        intro h
        simp only [] at h
        rcases TxBody.into_cases m old.body with ⟨t, _, h2⟩ | ⟨e', o', _, h2, _⟩ | ⟨_, h2⟩
        · rw [bind_of_ok (show onField Tx.body (fun b t => { t with body := b }) (TxBody.into m) old =
            ({ old with body := t }, .ok ()) by simp [onField, h2])] at h
          exact absurd (congrArg Prod.snd h) (hw _)
        · rw [bind_of_throw (show onField Tx.body (fun b t => { t with body := b }) (TxBody.into m) old =
            ({ old with body := o' }, .throw e') by simp [onField, h2])] at h
          obtain ⟨rfl, h5⟩ := Prod.mk.inj h
          obtain rfl : e' = e := by injection h5
          exact ⟨rfl, rfl, Or.inr ⟨m, h2⟩⟩
        · have := bind_snd_ub (f := fun _ => (match (l[1]?).bind asMap with
            | none => pure ()
            | some m => onField Tx.wits (fun w t => { t with wits := w }) (WitnessSet.into m) : Member Tx Unit))
            (show (onField Tx.body (fun b t => { t with body := b }) (TxBody.into m) old).2 = .ub by simp [onField, h2])
          exact absurd ((congrArg Prod.snd h).symm.trans this) (by simp)

/-- **C84** is false of the code: after a failed read a signed transaction still carries its signatures, over
a body that has lost its inputs and outputs. -/
theorem C84_transaction_stale_witnesses (old : Tx) :
    intoArray Tx.into (enc (.array [.map [.uint 0, .array [], .uint 1, .array [.array []]]])) old =
      ({ old with body := { old.body with inputs := [], outputs := [] } }, .throw .runtimeError) := by
  have hp : parse (enc (.array [.map [.uint 0, .array [], .uint 1, .array [.array []]]])) =
      some (.array [.map [.uint 0, .array [], .uint 1, .array [.array []]]]) := by rfl
  unfold intoArray
  rw [hp]
  rfl

/-- **C84** (transactions, success): which parts of the old transaction survive a successful read: the
metadata always, the body and the witnesses exactly when the bytes do not hold a map in their place. -/
theorem C84_transaction_kept (l : List Item) (old o : Tx) (h : Tx.into l old = (o, .ok ())) :
    o.metadata = old.metadata ∧
    (match (l[0]?).bind asMap with
      | none => o.body = old.body
      | some m => TxBody.deser m = .ok o.body) ∧
    (match (l[1]?).bind asMap with
      | none => o.wits = old.wits
      | some m => WitnessSet.deser m = .ok o.wits) := by
  have ha := transaction_agrees l old
  cases hd : Tx.deser old l with
  | throw e => rw [hd, h] at ha; exact absurd ha (by simp [Agrees])
  | ub => rw [hd, h] at ha; exact absurd ha (by simp [Agrees])
  | ok t =>
    rw [hd, h] at ha
    obtain ⟨rfl, _⟩ := Prod.mk.inj ha
    unfold Tx.deser at hd
    obtain ⟨bd, hb, hd⟩ := Out.bind_eq_ok.mp hd
    obtain ⟨ws, hw, hd⟩ := Out.bind_eq_ok.mp hd
    obtain rfl := Out.ok.inj hd
    refine ⟨rfl, ?_, ?_⟩
    · unfold bodyAt at hb
      cases hm : (l[0]?).bind asMap with
      | none => rw [hm] at hb; exact (Out.ok.inj hb).symm
      | some m => rw [hm] at hb; exact hb
    · unfold witsAt at hw
      cases hm : (l[1]?).bind asMap with
      | none => rw [hm] at hw; exact (Out.ok.inj hw).symm
      | some m => rw [hm] at hw; exact hw

-- concrete cases: the hypotheses are met
example : intoArray TxIn.into [0x80] ⟨List.replicate 32 7, 3⟩ = (⟨List.replicate 32 7, 3⟩, .throw .invalidArgument) := by
  have hp : parse [0x80] = some (.array []) := by rfl
  unfold intoArray; rw [hp]; rfl
example : TypeFrom 3 [0x82, 0x05, 0x00] :=
  ⟨.array [.uint 5, .uint 0], .uint 5, .uint 0, [], 5, by rfl, rfl, rfl, by omega⟩
example : ¬ TypeFrom 3 [0x82, 0x02, 0x61, 0x61] := by
  rintro ⟨i, t, a, l, k, hp, ha, hk, hn⟩
  have : parse [0x82, 0x02, 0x61, 0x61] = some (.array [.uint 2, .tstr [0x61]]) := by rfl
  rw [this] at hp
  obtain rfl := Option.some.inj hp
  have h1 : [Item.uint 2, .tstr [0x61]] = t :: a :: l := Option.some.inj ha
  obtain ⟨rfl, _⟩ := List.cons.inj h1
  have h2 : (2 : Nat) = k := Option.some.inj hk
  omega

end Cardano.Ledger
