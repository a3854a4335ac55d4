import Verif.Props.BabbageWritten
import Verif.Props.BabbageBuilder

/-! # What the bytes of a Babbage builder mean (C100) -/

namespace Cardano.BabbageBuilder

open Cardano Cardano.Cbor Cardano.Ledger Cardano.Spec.Ledger Cardano.Spec.BabbageBuilder
open Cardano.TxBuilder (Env replaceWitness)

theorem run_vkeys_length (E : Env) (k : Nat) (ops : List Op) : ∀ b b', run E k b ops = some b' →
    b'.tx.wits.vkeys.length ≤ b.tx.wits.vkeys.length + ops.length := by
  induction ops with
  | nil => intro b b' h; simp only [run, Option.some.injEq] at h; subst h; simp
  | cons op ops ih =>
    intro b b' h
    rw [run] at h
    split at h
    · cases h
    · cases h
    · rename_i b1 o _ hst
      have h1 := ih b1 b' h
      have h2 : b1.tx.wits.vkeys.length ≤ b.tx.wits.vkeys.length + 1 := by
        rcases step_vkeys E k b b1 op o hst with e | e | ⟨key, sig, e⟩
        · rw [e]; simp
        · rw [e]; omega
        · rw [e]
          have := List.length_filter_le (fun w : VkeyWitness => !(w.vkey == key)) b.tx.wits.vkeys
          simp only [replaceWitness, List.length_append, List.length_singleton]
          omega
      rw [List.length_cons]; omega

theorem payments_written (ops : List Op) : (outputsOf ops).map babbageOutWritten = outputsOf ops := by
  have hp : ∀ a n p, babbageOutWritten (payment a n p) = payment a n p := by intro a n p; cases p <;> rfl
  induction ops with
  | nil => rfl
  | cons op ops ih => cases op <;> simp [outputsOf, ih, hp]

/-- **C100** (any history).  After any calls on a new Babbage builder, with arguments of their C++ sizes, the bytes — whatever follows them — mean
the transaction in the builder and no other: the inputs, payments, withdrawals, fee and time to live that were asked for, and the
witnesses. -/
theorem C100_builder (E : Env) (k : Nat) (ops : List Op) (b : Builder) (h : run E k {} ops = some b)
    (ha : ∀ op ∈ ops, ArgsWF op) (hl : ops.length < 2 ^ 60) (rest : Bytes) :
    ∃ i, parse (serialize b ++ rest) = some i ∧ (∀ t, BabbageTxMeans i t ↔ t = b.tx) ∧
      (∀ x, x ∈ b.tx.body.inputs ↔ x ∈ inputsOf ops) ∧ b.tx.body.outputs = outputsOf ops ∧
      (∀ a n, (a, n) ∈ b.tx.body.withdrawals ↔ Spec.TxBuilder.lastFor a (withdrawalsOf ops) = some n) ∧
      b.tx.body.ttl = ttlOf ops ∧ b.tx.flag = true := by
  obtain ⟨⟨-, c2⟩, c3, ⟨-, c5⟩, c6, -, c8, c9⟩ := C78_body E k ops b h
  have hlen := run_vkeys_length E k ops {} b h
  obtain ⟨i, hi, hm⟩ := Babbage.C100_written b.tx (run_rep E k ops b h ha hl)
    (by unfold Fits; simp only [List.length_nil] at hlen; omega)
    (fun w hw => (C76_witnesses_valid E k b ops h (fun key e => ha _ e) w hw).1) rest
  have e : babbageWritten b.tx = b.tx := by
    have h1 : b.tx.body.outputs.map babbageOutWritten = b.tx.body.outputs := by rw [c3]; exact payments_written ops
    generalize b.tx = t at h1 c8
    obtain ⟨⟨_, _, _, _, _, _⟩, _, _⟩ := t
    simp only at c8 h1
    simp [babbageWritten, h1, c8]
  rw [e] at hm
  exact ⟨i, hi, hm, c2, c3, c5, c6, c9⟩

/-- A concrete history: two inputs, two payments in both forms, a withdrawal, fee, time to live, then trailing bytes. -/
example (E : Env) : ∃ b i, run E 12 {} [.addInput (List.replicate 32 1) 0, .addInput (List.replicate 40 2) 7,
      .addOutputBase ⟨0x01, List.replicate 28 3, List.replicate 28 4⟩ 5000000 false, .addOutputEnterprise ⟨0x61, List.replicate 28 5⟩ 1 true,
      .addWithdrawal ⟨0xE1, List.replicate 28 6⟩ 12, .setFee 170000, .setTtl 1000] = some b ∧
    parse (serialize b ++ [0xff, 0x00]) = some i ∧ BabbageTxMeans i b.tx ∧ b.tx.body.outputs.length = 2 := by
  obtain ⟨b, hb⟩ : ∃ b, run E 12 {} [.addInput (List.replicate 32 1) 0, .addInput (List.replicate 40 2) 7,
      .addOutputBase ⟨0x01, List.replicate 28 3, List.replicate 28 4⟩ 5000000 false, .addOutputEnterprise ⟨0x61, List.replicate 28 5⟩ 1 true,
      .addWithdrawal ⟨0xE1, List.replicate 28 6⟩ 12, .setFee 170000, .setTtl 1000] = some b := ⟨_, rfl⟩
  obtain ⟨i, h1, h2, -, h3, -⟩ := C100_builder E 12 _ b hb (by
    intro op hop
    simp only [List.mem_cons, List.not_mem_nil, or_false] at hop
    rcases hop with rfl | rfl | rfl | rfl | rfl | rfl | rfl <;> simp [ArgsWF]) (by decide) [0xff, 0x00]
  exact ⟨b, i, hb, h1, (h2 _).mpr rfl, by rw [h3]; rfl⟩

end Cardano.BabbageBuilder
