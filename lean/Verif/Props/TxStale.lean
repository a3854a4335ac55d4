import Verif.Props.TxBuilder

/-! # C49, exactly: where every key witness comes from, and when it is out of date -/

namespace Cardano.TxBuilder

open Cardano Cardano.Ledger Cardano.Cbor Cardano.Spec.TxBuilder

/-- A body with more certificates. -/
def withCerts (t : TxBody) (cs : List Certificate) : TxBody := { t with certificates := t.certificates ++ cs }

theorem step_body (E : Env) (k : Nat) (b b' : Builder) (op : Op) (o : Out Unit) (hc : clears op = false)
    (h : step E k b op = some (b', o)) : b'.tx.body = withCerts b.tx.body ((certsOf [op]).map (·.1)) := by
  cases hi : isCert op with
  | false =>
    rw [other_body E k b b' op o hc hi h]
    cases op <;> simp only [isCert, Bool.true_eq_false] at hi <;> simp [certsOf, withCerts]
  | true =>
    cases op <;> simp only [isCert, Bool.false_eq_true] at hi <;>
      (simp only [step, Option.some.injEq, Prod.mk.injEq] at h; rw [← h.1]; rfl)

theorem step_witness (E : Env) (k : Nat) (b b' : Builder) (op : Op) (o : Out Unit) (h : step E k b op = some (b', o))
    (w : VkeyWitness) (hw : w ∈ b'.tx.wits.vkeys) :
    clears op = false ∧ (w ∈ b.tx.wits.vkeys ∨ ∃ key id, op = .sign key ∧ getID E b = .ok id ∧ key.pub E = .ok w.vkey ∧
      key.sign E id = .ok w.sig) := by
  cases hc : clears op with
  | true => rw [clears_vkeys E k b b' op o hc h] at hw; cases hw
  | false =>
    refine ⟨rfl, ?_⟩
    cases op with
    | sign key =>
      simp only [step, Option.some.injEq] at h
      cases o with
      | ok u =>
        obtain ⟨p, s, h1, h2, h3, -⟩ := C50_sign_replaces E b b' key h
        rcases (h3 w).mp hw with ⟨hw, -⟩ | rfl
        · exact .inl hw
        · obtain ⟨id, g1, g2⟩ := Out.bind_eq_ok.mp h2
          exact .inr ⟨key, id, rfl, g1, h1, g2⟩
      | throw x =>
        rcases sign_cases E b key with ⟨_, _, -, hs⟩ | hs
        · rw [hs] at h; simp at h
        · have : b' = b := by rw [← hs, h]
          rw [this] at hw; exact .inl hw
      | ub =>
        rcases sign_cases E b key with ⟨_, _, -, hs⟩ | hs
        · rw [hs] at h; simp at h
        · have : b' = b := by rw [← hs, h]
          rw [this] at hw; exact .inl hw
    | addInput u =>
      simp only [step, Option.some.injEq] at h
      unfold addInput at h
      rw [if_pos (by simpa [clears] using hc)] at h
      simp only [Prod.mk.injEq] at h
      rw [← h.1] at hw; exact .inl hw
    | _ =>
      simp only [step, Option.some.injEq, Prod.mk.injEq, clears, Bool.true_eq_false] at h hc
      try (rw [← h.1] at hw; exact .inl hw)

theorem certsOf_cons (op : Op) (ops : List Op) : certsOf (op :: ops) = certsOf [op] ++ certsOf ops := by
  cases op <;> rfl

theorem withCerts_withCerts (t : TxBody) (cs cs' : List Certificate) : withCerts (withCerts t cs) cs' = withCerts t (cs ++ cs') := by
  simp [withCerts]

theorem run_witness (E : Env) (k : Nat) (ops : List Op) : ∀ b b' : Builder, run E k b ops = some b' → ∀ w ∈ b'.tx.wits.vkeys,
    (w ∈ b.tx.wits.vkeys ∧ (∀ op ∈ ops, clears op = false) ∧ b'.tx.body = withCerts b.tx.body ((certsOf ops).map (·.1))) ∨
    ∃ pre key post b1 id, ops = pre ++ .sign key :: post ∧ run E k b pre = some b1 ∧ getID E b1 = .ok id ∧ key.pub E = .ok w.vkey ∧
      key.sign E id = .ok w.sig ∧ (∀ op ∈ post, clears op = false) ∧ b'.tx.body = withCerts b1.tx.body ((certsOf post).map (·.1)) := by
  induction ops with
  | nil =>
    intro b b' h w hw
    simp only [run, Option.some.injEq] at h
    subst h
    exact .inl ⟨hw, by simp, by simp [withCerts, certsOf]⟩
  | cons op ops ih =>
    intro b b' h w hw
    rw [run] at h
    split at h
    · cases h
    · cases h
    · rename_i b1 o hub hst
      rcases ih b1 b' h w hw with ⟨h1, h2, h3⟩ | ⟨pre, key, post, b2, id, h1, h2, h3⟩
      · obtain ⟨g1, g2⟩ := step_witness E k b b1 op o hst w h1
        have hb := step_body E k b b1 op o g1 hst
        rcases g2 with g2 | ⟨key, id, rfl, g3, g4, g5⟩
        · refine .inl ⟨g2, ?_, ?_⟩
          · intro op' hop
            rcases List.mem_cons.mp hop with rfl | hop
            · exact g1
            · exact h2 op' hop
          · rw [h3, hb, withCerts_withCerts, certsOf_cons op ops, List.map_append]
        · refine .inr ⟨[], key, ops, b, id, rfl, rfl, g3, g4, g5, h2, ?_⟩
          rw [h3, hb]
          simp [withCerts, certsOf]
      · refine .inr ⟨op :: pre, key, post, b2, id, by rw [h1]; rfl, ?_, h3⟩
        rw [run, hst]
        cases o with
        | ub => exact absurd rfl hub
        | ok _ => exact h2
        | throw _ => exact h2

theorem mapOut_mem {α β} (f : α → Out β) : ∀ (l : List α) (r : List β), mapOut f l = .ok r → ∀ x ∈ l, ∃ y, f x = .ok y := by
  intro l
  induction l with
  | nil => intro r _ x hx; cases hx
  | cons a l ih =>
    intro r h x hx
    rw [mapOut] at h
    obtain ⟨y, h1, h2⟩ := Out.bind_eq_ok.mp h
    obtain ⟨ys, h3, -⟩ := Out.bind_eq_ok.mp h2
    rcases List.mem_cons.mp hx with rfl | hx
    · exact ⟨y, h1⟩
    · exact ih ys h3 x hx

theorem certs_ser (t : TxBody) (s : Bytes) (h : t.serialize = .ok s) : ∀ c ∈ t.certificates, ∃ l, c.ser = .ok l := by
  obtain ⟨items, h1, -⟩ := Out.bind_eq_ok.mp h
  unfold TxBody.ser at h1
  obtain ⟨cs, h3, -⟩ := Out.bind_eq_ok.mp h1
  unfold certsEntry at h3
  split at h3
  · rename_i he; rw [he]; simp
  · obtain ⟨ls, g1, -⟩ := Out.bind_eq_ok.mp h3
    exact mapOut_mem _ _ _ g1

theorem more_certs (cs : List Certificate) (hcs : ∀ c ∈ cs, ∃ l, c.ser = .ok l) : ∀ (t : TxBody) (s : Bytes), t.serialize = .ok s →
    ∃ s', (withCerts t cs).serialize = .ok s' ∧ s.length + cs.length ≤ s'.length := by
  induction cs with
  | nil => intro t s hs; exact ⟨s, by simpa [withCerts] using hs, by simp⟩
  | cons c cs ih =>
    intro t s hs
    obtain ⟨l, hl⟩ := hcs c (by simp)
    obtain ⟨-, s1, h1, h2⟩ := C49_certificate_keeps_stale_witnesses ({ tx := { body := t } } : Builder) c 0 l s hs hl
    obtain ⟨s', h3, h4⟩ := ih (fun c' hc' => hcs c' (by simp [hc'])) (withCerts t [c]) s1 h1
    rw [withCerts_withCerts] at h3
    exact ⟨s', h3, by simp only [List.length_cons]; omega⟩

/-- **C49, exactly.**  After any history of calls on a new builder every key witness was made by a `sign` call of the history, is the signature of
the id the builder showed at that moment, and no later call should have removed it; the body is the one signed, followed by the certificates
added since.  So the body still has the bytes that were signed exactly when no certificate has been added since; each added one makes it
longer. -/
theorem C49_exact (E : Env) (k : Nat) (ops : List Op) (b : Builder) (h : run E k {} ops = some b) (w : VkeyWitness)
    (hw : w ∈ b.tx.wits.vkeys) :
    ∃ pre key post b1 signed, ops = pre ++ .sign key :: post ∧ run E k {} pre = some b1 ∧
      b1.tx.body.serialize = .ok signed ∧ getID E b1 = .ok (E.S.hash signed) ∧
      key.pub E = .ok w.vkey ∧ key.sign E (E.S.hash signed) = .ok w.sig ∧ (∀ op ∈ post, clears op = false) ∧
      b.tx.body = { b1.tx.body with certificates := b1.tx.body.certificates ++ (certsOf post).map (·.1) } ∧
      ∀ now, b.tx.body.serialize = .ok now → (now = signed ↔ certsOf post = []) ∧ signed.length + (certsOf post).length ≤ now.length := by
  rcases run_witness E k ops {} b h w hw with ⟨h1, -⟩ | ⟨pre, key, post, b1, id, h1, h2, h3, h4, h5, h6, h7⟩
  · cases h1
  · obtain ⟨signed, g1, g2⟩ := Out.bind_eq_ok.mp h3
    obtain rfl := Out.ok.inj g2
    refine ⟨pre, key, post, b1, signed, h1, h2, g1, h3, h4, h5, h6, h7, ?_⟩
    intro now hnow
    have hc : ∀ c ∈ (certsOf post).map (·.1), ∃ l, c.ser = .ok l := by
      intro c hc
      refine certs_ser _ now hnow c ?_
      rw [h7]
      exact List.mem_append_right _ hc
    obtain ⟨s', e1, e2⟩ := more_certs _ hc _ signed g1
    rw [← h7, hnow] at e1
    obtain rfl := Out.ok.inj e1
    rw [List.length_map] at e2
    refine ⟨⟨?_, ?_⟩, e2⟩
    · rintro rfl
      exact List.eq_nil_of_length_eq_zero (by omega)
    · intro e
      rw [h7, e] at hnow
      have : (withCerts b1.tx.body []).serialize = .ok now := hnow
      rw [show withCerts b1.tx.body [] = b1.tx.body by simp [withCerts], g1] at this
      exact (Out.ok.inj this).symm

/-- The hypotheses are met: sign, then retire a pool; the witness signs the shorter bytes. -/
example (E : Env) (seed : Bytes) : ∃ b w, run E 12 {} [.setFee 7, .sign (.ed seed), .poolRetirement (List.replicate 28 1) 9] = some b ∧
    w ∈ b.tx.wits.vkeys := ⟨_, ⟨E.S.pub seed, E.S.sign seed (E.S.hash [0xA4, 0, 0x80, 1, 0x80, 2, 7, 3, 0])⟩, rfl, List.mem_singleton.mpr rfl⟩

end Cardano.TxBuilder
