import Verif.Spec.Errors
import Verif.Props.LedgerTx

/-! # C87: the exceptions of the ledger deserializers -/

namespace Cardano.Ledger

open Cardano Cardano.Cbor Cardano.Spec.Errors

section
variable {i : Item}
theorem txt_iff : Txt i ↔ (asTstr i).isSome := by simp [Txt, Option.isSome_iff_exists]
theorem num_iff : Num i ↔ (asUint i).isSome := by simp [Num, Option.isSome_iff_exists]
theorem byt_iff : Byt i ↔ (asBstr i).isSome := by simp [Byt, Option.isSome_iff_exists]
theorem arr_iff : Arr i ↔ (asArray i).isSome := by simp [Arr, Option.isSome_iff_exists]
end

theorem pair_nil {P Q : Item → Prop} : ¬ Pair P Q [] := by rintro ⟨a, b, h, _⟩; simp at h
theorem pair_one {P Q : Item → Prop} {x : Item} : ¬ Pair P Q [x] := by rintro ⟨a, b, h, _⟩; simp at h
theorem pair_two {P Q : Item → Prop} {x y : Item} : Pair P Q [x, y] ↔ P x ∧ Q y :=
  ⟨by rintro ⟨a, b, h, p, q⟩; simp at h; obtain ⟨rfl, rfl⟩ := h; exact ⟨p, q⟩, fun h => ⟨x, y, rfl, h⟩⟩
theorem pair_more {P Q : Item → Prop} {x y z : Item} {l : List Item} : ¬ Pair P Q (x :: y :: z :: l) := by
  rintro ⟨a, b, h, _⟩; simp at h
theorem triple_three {P Q R : Item → Prop} {x y z : Item} : Triple P Q R [x, y, z] ↔ P x ∧ Q y ∧ R z :=
  ⟨by rintro ⟨a, b, c, h, p⟩; simp at h; obtain ⟨rfl, rfl, rfl⟩ := h; exact p, fun h => ⟨x, y, z, rfl, h⟩⟩
theorem triple_short {P Q R : Item → Prop} {l : List Item} (h : l.length ≠ 3) : ¬ Triple P Q R l := by
  rintro ⟨a, b, c, rfl, _⟩; simp at h

/-- The two ways to be refused, with `runtime_error`. -/
theorem reports_rt {α} {x : Out α} {rt inv ub : Prop} (h : x = .throw .runtimeError) (h1 : rt) (h2 : ¬ inv) (h3 : ¬ ub) :
    Reports x rt inv ub := by
  subst h
  exact ⟨by simp [h1], by simp [h2], by simp [h3], by simp⟩
theorem reports_inv {α} {x : Out α} {rt inv ub : Prop} (h : x = .throw .invalidArgument) (h1 : ¬ rt) (h2 : inv) (h3 : ¬ ub) :
    Reports x rt inv ub := by
  subst h
  exact ⟨by simp [h1], by simp [h2], by simp [h3], by simp⟩
theorem reports_ok {α} {x : Out α} {rt inv ub : Prop} {a : α} (h : x = .ok a) (h1 : ¬ rt) (h2 : ¬ inv) (h3 : ¬ ub) :
    Reports x rt inv ub := by
  subst h
  exact ⟨by simp [h1], by simp [h2], by simp [h3], by simp⟩
theorem reports_ub {α} {x : Out α} {rt inv ub : Prop} (h : x = .ub) (h1 : ¬ rt) (h2 : ¬ inv) (h3 : ub) :
    Reports x rt inv ub := by
  subst h
  exact ⟨by simp [h1], by simp [h2], by simp [h3], by simp⟩

/-- **C87**: a fraction. -/
theorem C87_rational (n : Nat) (i : Item) :
    Reports (Rational.deser n i)
      (¬ (n = 30 ∧ ArrOf (Pair Num fun d => ∃ k, asUint d = some k ∧ k ≠ 0) i)) False False := by
  unfold Rational.deser
  by_cases hn : n = 30
  · subst hn
    simp only [ne_eq, not_true_eq_false, if_false]
    rcases ha : asArray i with _ | _ | ⟨x, _ | ⟨y, _ | ⟨z, l⟩⟩⟩
    · exact reports_rt rfl (by simp [ArrOf, ha]) (by simp) (by simp)
    · exact reports_rt rfl (by simp [ArrOf, ha, pair_nil]) (by simp) (by simp)
    · exact reports_rt rfl (by simp [ArrOf, ha, pair_one]) (by simp) (by simp)
    · rcases hx : asUint x with _ | num
      · exact reports_rt (by simp [hx]) (by simp [ArrOf, ha, pair_two, Num, hx]) (by simp) (by simp)
      · rcases hy : asUint y with _ | den
        · exact reports_rt (by simp [hx, hy]) (by simp [ArrOf, ha, pair_two, Num, hy]) (by simp) (by simp)
        · by_cases hd : den = 0
          · exact reports_rt (by simp [hx, hy, hd]) (by simp [ArrOf, ha, pair_two, Num, hy, hd]) (by simp) (by simp)
          · exact reports_ok (a := ⟨num, den⟩) (by simp [hx, hy, hd]) (by simp [ArrOf, ha, pair_two, Num, hx, hy, hd]) (by simp) (by simp)
    · exact reports_rt rfl (by simp [ArrOf, ha, pair_more]) (by simp) (by simp)
  · exact reports_rt (by simp [hn]) (by simp [hn]) (by simp) (by simp)

/-- **C87**: pool metadata. -/
theorem C87_poolMetadata (l : List Item) :
    Reports (PoolMetadata.deser l) (¬ Pair Txt Byt l) (Pair Txt Byt l ∧ ¬ Pair Txt (BytN 32) l) False := by
  unfold PoolMetadata.deser
  rcases l with _ | ⟨x, _ | ⟨y, _ | ⟨z, l⟩⟩⟩
  · exact reports_rt rfl pair_nil (by simp [pair_nil]) (by simp)
  · exact reports_rt rfl pair_one (by simp [pair_one]) (by simp)
  · rcases hx : asTstr x with _ | u <;> rcases hy : asBstr y with _ | h
    · exact reports_rt (by simp [hx, hy]) (by simp [pair_two, Txt, hx]) (by simp [pair_two, Txt, hx]) (by simp)
    · exact reports_rt (by simp [hx, hy]) (by simp [pair_two, Txt, hx]) (by simp [pair_two, Txt, hx]) (by simp)
    · exact reports_rt (by simp [hx, hy]) (by simp [pair_two, Byt, hy]) (by simp [pair_two, Byt, hy]) (by simp)
    · by_cases hl : h.length = 32
      · exact reports_ok (a := ⟨u, h⟩) (by simp [hx, hy, reqLen, hl]) (by simp [pair_two, Txt, Byt, hx, hy])
          (by simp [pair_two, Txt, Byt, BytN, hx, hy, hl]) (by simp)
      · exact reports_inv (by simp [hx, hy, reqLen, hl]) (by simp [pair_two, Txt, Byt, hx, hy])
          (by simp [pair_two, Txt, Byt, BytN, hx, hy, hl]) (by simp)
  · exact reports_rt rfl pair_more (by simp [pair_more]) (by simp)

/-- **C87**: a credential. -/
theorem C87_credential (l : List Item) :
    Reports (StakeCredential.deser l) (¬ Pair Bit Byt l) (Pair Bit Byt l ∧ ¬ Pair Bit (BytN 28) l) False := by
  unfold StakeCredential.deser
  rcases l with _ | ⟨x, _ | ⟨y, _ | ⟨z, l⟩⟩⟩
  · exact reports_rt rfl pair_nil (by simp [pair_nil]) (by simp)
  · exact reports_rt rfl pair_one (by simp [pair_one]) (by simp)
  · rcases hx : asUint x with _ | u <;> rcases hy : asBstr y with _ | h
    · exact reports_rt (by simp [hx, hy]) (by simp [pair_two, Bit, hx]) (by simp [pair_two, Bit, hx]) (by simp)
    · exact reports_rt (by simp [hx, hy]) (by simp [pair_two, Bit, hx]) (by simp [pair_two, Bit, hx]) (by simp)
    · exact reports_rt (by simp [hx, hy]) (by simp [pair_two, Byt, hy]) (by simp [pair_two, Byt, hy]) (by simp)
    · have hb : Pair Bit Byt [x, y] ↔ u ≤ 1 := by simp [pair_two, Bit, Byt, hx, hy]
      have hc : Pair Bit (BytN 28) [x, y] ↔ u ≤ 1 ∧ h.length = 28 := by simp [pair_two, Bit, BytN, hx, hy]
      rw [hb, hc]
      rcases u with _ | _ | u
      · by_cases hl : h.length = 28
        · exact reports_ok (a := ⟨.keyHash, h⟩) (by simp [hx, hy, reqLen, hl, credTypeOf]) (by simp) (by simp [hl]) (by simp)
        · exact reports_inv (by simp [hx, hy, reqLen, hl, credTypeOf]) (by simp) (by simp [hl]) (by simp)
      · by_cases hl : h.length = 28
        · exact reports_ok (a := ⟨.scriptHash, h⟩) (by simp [hx, hy, reqLen, hl, credTypeOf]) (by simp) (by simp [hl]) (by simp)
        · exact reports_inv (by simp [hx, hy, reqLen, hl, credTypeOf]) (by simp) (by simp [hl]) (by simp)
      · exact reports_rt (by simp [hx, hy, credTypeOf]) (by omega) (by omega) (by simp)
  · exact reports_rt rfl pair_more (by simp [pair_more]) (by simp)

/-- **C87**: an output. -/
theorem C87_output (l : List Item) : Reports (TxOut.deser l) (¬ Pair Byt Num l) False False := by
  unfold TxOut.deser
  rcases l with _ | ⟨x, _ | ⟨y, _ | ⟨z, l⟩⟩⟩
  · exact reports_rt rfl pair_nil (by simp) (by simp)
  · exact reports_rt rfl pair_one (by simp) (by simp)
  · rcases hx : asBstr x with _ | u <;> rcases hy : asUint y with _ | h
    · exact reports_rt (by simp [hx, hy]) (by simp [pair_two, Byt, hx]) (by simp) (by simp)
    · exact reports_rt (by simp [hx, hy]) (by simp [pair_two, Byt, hx]) (by simp) (by simp)
    · exact reports_rt (by simp [hx, hy]) (by simp [pair_two, Num, hy]) (by simp) (by simp)
    · exact reports_ok (a := ⟨u, h⟩) (by simp [hx, hy]) (by simp [pair_two, Num, Byt, hx, hy]) (by simp) (by simp)
  · exact reports_rt rfl pair_more (by simp) (by simp)

/-- **C87**: an input. -/
theorem C87_input (l : List Item) : Reports (TxIn.deser l) False (¬ Pair (BytN 32) Num l) False := by
  unfold TxIn.deser
  rcases l with _ | ⟨x, _ | ⟨y, _ | ⟨z, l⟩⟩⟩
  · exact reports_inv rfl (by simp) pair_nil (by simp)
  · exact reports_inv rfl (by simp) pair_one (by simp)
  · rcases hx : asBstr x with _ | u <;> rcases hy : asUint y with _ | h
    · exact reports_inv (by simp [hx, hy]) (by simp) (by simp [pair_two, BytN, hx]) (by simp)
    · exact reports_inv (by simp [hx, hy]) (by simp) (by simp [pair_two, BytN, hx]) (by simp)
    · exact reports_inv (by simp [hx, hy]) (by simp) (by simp [pair_two, Num, hy]) (by simp)
    · by_cases hl : u.length = 32
      · exact reports_ok (a := ⟨u, h⟩) (by simp [hx, hy, reqLen, hl]) (by simp) (by simp [pair_two, Num, BytN, hx, hy, hl]) (by simp)
      · exact reports_inv (by simp [hx, hy, reqLen, hl]) (by simp) (by simp [pair_two, Num, BytN, hx, hy, hl]) (by simp)
  · exact reports_inv rfl (by simp) pair_more (by simp)

/-- What a relay must look like, by its type number; unknown numbers (3 and above) are not refused. -/
def RelayShape (l : List Item) : Prop :=
  ∃ t a r k, l = t :: a :: r ∧ asUint t = some k ∧
    (k = 0 → r.length = 2) ∧ (k = 1 → ∃ b, r = [b] ∧ Txt b) ∧ (k = 2 → r = [] ∧ Txt a)

/-- **C87**: a relay. -/
theorem C87_relay (old : Relay) (l : List Item) : Reports (Relay.deser old l) (¬ RelayShape l) False False := by
  unfold Relay.deser
  rcases l with _ | ⟨t, _ | ⟨a, r⟩⟩
  · exact reports_rt rfl (by simp [RelayShape]) (by simp) (by simp)
  · exact reports_rt rfl (by simp [RelayShape]) (by simp) (by simp)
  · have hs : ∀ k, asUint t = some k → (RelayShape (t :: a :: r) ↔
        (k = 0 → r.length = 2) ∧ (k = 1 → ∃ b, r = [b] ∧ Txt b) ∧ (k = 2 → r = [] ∧ Txt a)) := by
      intro k hk
      constructor
      · rintro ⟨t', a', r', k', h, hk', h1⟩
        simp only [List.cons.injEq] at h
        obtain ⟨rfl, rfl, rfl⟩ := h
        rw [hk] at hk'
        obtain rfl := Option.some.inj hk'
        exact h1
      · intro h; exact ⟨t, a, r, k, rfl, hk, h⟩
    rcases ht : asUint t with _ | _ | _ | _ | k
    · refine reports_rt (by simp [ht]) ?_ (by simp) (by simp)
      rintro ⟨t', a', r', k', h, hk', h1⟩
      simp only [List.cons.injEq] at h
      obtain ⟨rfl, rfl, rfl⟩ := h
      rw [ht] at hk'; simp at hk'
    · rw [hs _ ht]
      simp only [ht]
      rcases r with _ | ⟨x, _ | ⟨y, _ | ⟨z, r⟩⟩⟩
      · exact reports_rt rfl (by simp) (by simp) (by simp)
      · exact reports_rt rfl (by simp) (by simp) (by simp)
      · exact reports_ok rfl (by simp) (by simp) (by simp)
      · exact reports_rt rfl (by simp) (by simp) (by simp)
    · rw [hs _ ht]
      simp only [ht]
      rcases r with _ | ⟨x, _ | ⟨y, r⟩⟩
      · exact reports_rt rfl (by simp) (by simp) (by simp)
      · rcases hx : asTstr x with _ | s
        · exact reports_rt (by simp [hx]) (by simp [Txt, hx]) (by simp) (by simp)
        · exact reports_ok (a := .name s (portOf a)) (by simp [hx]) (by simp [Txt, hx]) (by simp) (by simp)
      · exact reports_rt rfl (by simp) (by simp) (by simp)
    · rw [hs _ ht]
      simp only [ht]
      rcases r with _ | ⟨x, r⟩
      · rcases hx : asTstr a with _ | s
        · exact reports_rt (by simp [hx]) (by simp [Txt, hx]) (by simp) (by simp)
        · exact reports_ok (a := .multi s) (by simp [hx]) (by simp [Txt, hx]) (by simp) (by simp)
      · exact reports_rt rfl (by simp) (by simp) (by simp)
    · rw [hs _ ht]
      exact reports_ok (a := old) (by simp [ht]) (by simp) (by simp) (by simp)

/-- `f` after a reader: the reader's failures, then none of its own. -/
theorem reports_map {α β} {x : Out α} {g : α → β} {rt inv ub : Prop} (h : Reports x rt inv ub) :
    Reports (x >>= fun a => .ok (g a)) rt inv ub := by
  obtain ⟨h1, h2, h3, h4⟩ := h
  cases x with
  | ok a => exact ⟨by simpa using h1, by simpa using h2, by simpa using h3, by simp⟩
  | throw e => exact ⟨by simpa using h1, by simpa using h2, by simpa using h3, fun e' he' => h4 e' (by simpa using he')⟩
  | ub => exact ⟨by simpa using h1, by simpa using h2, by simpa using h3, by simp⟩

/-- **C87**: stake registration and deregistration certificates `[type, credential]`. -/
theorem C87_credential_certificate (mk : StakeCredential → Certificate) (l : List Item) :
    Reports (credCert mk l)
      (¬ Pair Any (ArrOf (Pair Bit Byt)) l)
      (Pair Any (ArrOf (Pair Bit Byt)) l ∧ ¬ Pair Any (ArrOf (Pair Bit (BytN 28))) l) False := by
  unfold credCert
  rcases l with _ | ⟨x, _ | ⟨y, _ | ⟨z, l⟩⟩⟩
  · exact reports_rt rfl pair_nil (by simp [pair_nil]) (by simp)
  · exact reports_rt rfl pair_one (by simp [pair_one]) (by simp)
  · simp only [pair_two, Any, true_and]
    rcases hy : asArray y with _ | c
    · exact reports_rt (by simp [hy]) (by simp [ArrOf, hy]) (by simp [ArrOf, hy]) (by simp)
    · simp only [hy]
      have e : ∀ P : List Item → Prop, ArrOf P y ↔ P c := by intro P; simp [ArrOf, hy]
      rw [e, e]
      exact reports_map (C87_credential c)
  · exact reports_rt rfl pair_more (by simp [pair_more]) (by simp)

/-- **C87**: delegation certificates `[2, credential, pool id]`: the credential is looked at before the
pool id's length. -/
theorem C87_delegation (l : List Item) :
    Reports (delegDeser l)
      (¬ Triple Any (ArrOf (Pair Bit Byt)) Byt l)
      (Triple Any (ArrOf (Pair Bit Byt)) Byt l ∧ ¬ Triple Any (ArrOf (Pair Bit (BytN 28))) (BytN 28) l) False := by
  unfold delegDeser
  rcases l with _ | ⟨x, _ | ⟨y, _ | ⟨z, _ | ⟨w, l⟩⟩⟩⟩
  · exact reports_rt rfl (triple_short (by simp)) (fun h => triple_short (by simp) h.1) (by simp)
  · exact reports_rt rfl (triple_short (by simp)) (fun h => triple_short (by simp) h.1) (by simp)
  · exact reports_rt rfl (triple_short (by simp)) (fun h => triple_short (by simp) h.1) (by simp)
  · simp only [triple_three, Any, true_and]
    rcases hy : asArray y with _ | c
    · exact reports_rt (by simp [hy]) (by simp [ArrOf, hy]) (by simp [ArrOf, hy]) (by simp)
    · have e : ∀ P : List Item → Prop, ArrOf P y ↔ P c := by intro P; simp [ArrOf, hy]
      rw [e, e]
      rcases hz : asBstr z with _ | h
      · exact reports_rt (by simp [hy, hz]) (by simp [Byt, hz]) (by simp [Byt, hz]) (by simp)
      · have eb : Byt z := ⟨h, hz⟩
        have en : BytN 28 z ↔ h.length = 28 := by simp [BytN, hz]
        rw [en]
        simp only [hy, hz, eb, and_true]
        obtain ⟨h1, h2, h3, h4⟩ := C87_credential c
        cases hc : StakeCredential.deser c with
        | ok a =>
          rw [hc] at h1 h2
          have hp : Pair Bit Byt c := by
            by_cases hp : Pair Bit Byt c
            · exact hp
            · exact absurd (h1.mpr hp) (by simp)
          have hq : Pair Bit (BytN 28) c := by
            by_cases hq : Pair Bit (BytN 28) c
            · exact hq
            · exact absurd (h2.mpr ⟨hp, hq⟩) (by simp)
          by_cases hl : h.length = 28
          · exact reports_ok (a := .delegation a h) (by simp [reqLen, hl]) (by simp [hp]) (by simp [hq, hl]) (by simp)
          · exact reports_inv (by simp [reqLen, hl]) (by simp [hp]) (by simp [hp, hl]) (by simp)
        | throw e =>
          rw [hc] at h1 h2
          rcases h4 e hc with rfl | rfl
          · have hp := h1.mp rfl
            exact reports_rt rfl hp (by simp [hp]) (by simp)
          · have hp := h2.mp rfl
            exact reports_inv rfl (by simp [hp.1]) ⟨hp.1, fun h => hp.2 h.1⟩ (by simp)
        | ub => exact absurd hc (by rw [h3]; simp)
  · exact reports_rt rfl (triple_short (by simp)) (fun h => triple_short (by simp) h.1) (by simp)

/-- **C87**: pool retirement certificates `[4, pool id, epoch]`; here a pool id of the wrong length is a
`runtime_error` too. -/
theorem C87_retirement (l : List Item) :
    Reports (retireDeser l) (¬ Triple Any (BytN 28) Num l) False False := by
  unfold retireDeser
  rcases l with _ | ⟨x, _ | ⟨y, _ | ⟨z, _ | ⟨w, l⟩⟩⟩⟩
  · exact reports_rt rfl (triple_short (by simp)) (by simp) (by simp)
  · exact reports_rt rfl (triple_short (by simp)) (by simp) (by simp)
  · exact reports_rt rfl (triple_short (by simp)) (by simp) (by simp)
  · simp only [triple_three, Any, true_and]
    rcases hy : asBstr y with _ | h
    · exact reports_rt (by simp [hy]) (by simp [BytN, hy]) (by simp) (by simp)
    · rcases hz : asUint z with _ | k
      · exact reports_rt (by simp [hy, hz]) (by simp [Num, hz]) (by simp) (by simp)
      · by_cases hl : h.length = 28
        · exact reports_ok (a := .poolRetire h k) (by simp [hy, hz, reqLen, hl]) (by simp [BytN, Num, hy, hz, hl]) (by simp) (by simp)
        · exact reports_rt (by simp [hy, hz, reqLen, hl]) (by simp [BytN, hy, hl]) (by simp) (by simp)
  · exact reports_rt rfl (triple_short (by simp)) (by simp) (by simp)

theorem mapOut_cases {α β} (f : α → Out β) : ∀ l : List α,
    (∃ ys, mapOut f l = .ok ys ∧ ∀ x ∈ l, ∃ y, f x = .ok y) ∨
    (∃ e pre x post, mapOut f l = .throw e ∧ l = pre ++ x :: post ∧ (∀ p ∈ pre, ∃ y, f p = .ok y) ∧ f x = .throw e) ∨
    (∃ pre x post, mapOut f l = .ub ∧ l = pre ++ x :: post ∧ (∀ p ∈ pre, ∃ y, f p = .ok y) ∧ f x = .ub)
  | [] => Or.inl ⟨[], rfl, by simp⟩
  | a :: l => by
    cases ha : f a with
    | throw e => exact Or.inr (Or.inl ⟨e, [], a, l, by simp [mapOut, ha], rfl, by simp, ha⟩)
    | ub => exact Or.inr (Or.inr ⟨[], a, l, by simp [mapOut, ha], rfl, by simp, ha⟩)
    | ok y =>
      rcases mapOut_cases f l with ⟨ys, h1, h2⟩ | ⟨e, pre, x, post, h1, h2, h3, h4⟩ | ⟨pre, x, post, h1, h2, h3, h4⟩
      · refine Or.inl ⟨y :: ys, by simp [mapOut, ha, h1], ?_⟩
        intro x hx
        rcases List.mem_cons.mp hx with rfl | hx
        · exact ⟨y, ha⟩
        · exact h2 x hx
      · refine Or.inr (Or.inl ⟨e, a :: pre, x, post, by simp [mapOut, ha, h1], by simp [h2], ?_, h4⟩)
        intro x hx
        rcases List.mem_cons.mp hx with rfl | hx
        · exact ⟨y, ha⟩
        · exact h3 x hx
      · refine Or.inr (Or.inr ⟨a :: pre, x, post, by simp [mapOut, ha, h1], by simp [h2], ?_, h4⟩)
        intro x hx
        rcases List.mem_cons.mp hx with rfl | hx
        · exact ⟨y, ha⟩
        · exact h3 x hx

/-- The first bad element is unique. -/
theorem firstBad_unique {Good B1 B2 : Item → Prop} {l : List Item} (h1 : FirstBad Good B1 l) (h2 : FirstBad Good B2 l)
    (hb1 : ∀ x, B1 x → ¬ Good x) (hb2 : ∀ x, B2 x → ¬ Good x) : ∃ x, B1 x ∧ B2 x := by
  obtain ⟨p1, x1, q1, rfl, g1, b1⟩ := h1
  obtain ⟨p2, x2, q2, e, g2, b2⟩ := h2
  induction p1 generalizing p2 with
  | nil =>
    cases p2 with
    | nil => simp at e; obtain ⟨rfl, _⟩ := e; exact ⟨x1, b1, b2⟩
    | cons a p2 =>
      simp at e; obtain ⟨rfl, _⟩ := e
      exact absurd (g2 x1 (by simp)) (hb1 x1 b1)
  | cons a p1 ih =>
    cases p2 with
    | nil =>
      simp at e; obtain ⟨rfl, _⟩ := e
      exact absurd (g1 a (by simp)) (hb2 a b2)
    | cons c p2 =>
      simp at e; obtain ⟨rfl, e⟩ := e
      exact ih (fun p hp => g1 p (by simp [hp])) p2 e (fun p hp => g2 p (by simp [hp]))

theorem owner_cases (i : Item) :
    (BytN 28 i ∧ ∃ b, ownerOf i = .ok b) ∨ (Byt i ∧ ¬ BytN 28 i ∧ ownerOf i = .throw .invalidArgument) ∨
    (¬ Byt i ∧ ¬ BytN 28 i ∧ ownerOf i = .ub) := by
  unfold ownerOf
  rcases h : asBstr i with _ | b
  · exact Or.inr (Or.inr ⟨by simp [Byt, h], by simp [BytN, h], by simp [deref]⟩)
  · by_cases hl : b.length = 28
    · exact Or.inl ⟨⟨b, h, hl⟩, b, by simp [deref, reqLen, hl]⟩
    · exact Or.inr (Or.inl ⟨⟨b, h⟩, by simp [BytN, h, hl], by simp [deref, reqLen, hl]⟩)

theorem ownersOf_reports (rest : List Item) :
    Reports (ownersOf rest.head?) False (OwnersBad (fun x => Byt x ∧ ¬ BytN 28 x) rest) (OwnersBad (fun x => ¬ Byt x) rest) := by
  have nb : ∀ x, ¬ Byt x → ¬ BytN 28 x := fun x h ⟨b, hb, _⟩ => h ⟨b, hb⟩
  have gd : ∀ x, (∃ y, ownerOf x = .ok y) → BytN 28 x := by
    intro x ⟨y, hy⟩
    rcases owner_cases x with ⟨h, _⟩ | ⟨_, _, h⟩ | ⟨_, _, h⟩
    · exact h
    · rw [h] at hy; simp at hy
    · rw [h] at hy; simp at hy
  unfold ownersOf
  rcases hr : rest.head? with _ | j
  · exact reports_ok (a := []) (by simp) (by simp) (by simp [OwnersBad, hr]) (by simp [OwnersBad, hr])
  · rcases hj : asArray j with _ | l
    · exact reports_ok (a := []) (by simp [hj]) (by simp) (by simp [OwnersBad, hr, hj]) (by simp [OwnersBad, hr, hj])
    · have e : ∀ B, OwnersBad B rest ↔ FirstBad (BytN 28) B l := by intro B; simp [OwnersBad, hr, hj]
      rw [e, e]
      simp only [Option.bind_some, hj]
      rcases mapOut_cases ownerOf l with ⟨ys, h1, h2⟩ | ⟨e, pre, x, post, h1, h2, h3, h4⟩ | ⟨pre, x, post, h1, h2, h3, h4⟩
      · rw [h1]
        refine reports_ok rfl (by simp) ?_ ?_
        · rintro ⟨p, x, q, hl, _, hb⟩; exact hb.2 (gd x (h2 x (by simp [hl])))
        · rintro ⟨p, x, q, hl, _, hb⟩; exact nb x hb (gd x (h2 x (by simp [hl])))
      · rw [h1]
        rcases owner_cases x with ⟨_, b, h⟩ | ⟨hx1, hx2, h⟩ | ⟨_, _, h⟩
        · rw [h] at h4; simp at h4
        · rw [h] at h4
          simp only [Out.throw.injEq] at h4; subst h4
          refine reports_inv rfl (by simp) ⟨pre, x, post, h2, fun p hp => gd p (h3 p hp), hx1, hx2⟩ ?_
          intro hu
          obtain ⟨y, hy1, hy2⟩ := firstBad_unique (B1 := fun x => Byt x ∧ ¬ BytN 28 x)
            ⟨pre, x, post, h2, fun p hp => gd p (h3 p hp), hx1, hx2⟩ hu (fun x h => h.2) nb
          exact hy2 hy1.1
        · rw [h] at h4; simp at h4
      · rw [h1]
        rcases owner_cases x with ⟨_, b, h⟩ | ⟨_, _, h⟩ | ⟨hx1, hx2, h⟩
        · rw [h] at h4; simp at h4
        · rw [h] at h4; simp at h4
        · refine reports_ub rfl (by simp) ?_ ⟨pre, x, post, h2, fun p hp => gd p (h3 p hp), hx1⟩
          intro hu
          obtain ⟨y, hy1, hy2⟩ := firstBad_unique (B1 := fun x => ¬ Byt x)
            ⟨pre, x, post, h2, fun p hp => gd p (h3 p hp), hx1⟩ hu nb (fun x h => h.2)
          exact hy1 hy2.1

theorem poolHead_iff {t a b c d m r : Item} {rest : List Item} {m' : Item} {rest' : List Item} :
    PoolHead (t :: a :: b :: c :: d :: m :: r :: rest) m' rest' ↔
      m' = m ∧ rest' = rest ∧ Byt a ∧ Byt b ∧ Num c ∧ Num d ∧ Arr m ∧ Byt r := by
  constructor
  · rintro ⟨t', a', b', c', d', r', h, hk⟩
    simp only [List.cons.injEq] at h
    obtain ⟨rfl, rfl, rfl, rfl, rfl, rfl, rfl, rfl⟩ := h
    exact ⟨rfl, rfl, hk⟩
  · rintro ⟨rfl, rfl, h⟩; exact ⟨t, a, b, c, d, r, rfl, h⟩

theorem poolHashes_iff {t a b : Item} {l : List Item} : PoolHashes (t :: a :: b :: l) ↔ BytN 28 a ∧ BytN 32 b := by
  constructor
  · rintro ⟨t', a', b', l', h, hk⟩
    simp only [List.cons.injEq] at h
    obtain ⟨rfl, rfl, rfl, rfl⟩ := h
    exact hk
  · intro h; exact ⟨t, a, b, l, rfl, h⟩

/-- **C87**: pool registration certificates.  A wrong kind or too few elements is `invalid_argument`, and so
is a key hash of the wrong length (operator, VRF key, then owners); `runtime_error` only for a tagged margin
that is no fraction; a margin without tag and an owner that is no byte string are undefined behaviour. -/
theorem C87_pool_registration (l : List Item) :
    Reports (poolRegDeser l)
      (∃ m rest, PoolHead l m rest ∧ PoolHashes l ∧ Tagged m ∧ ¬ Fraction m)
      ((¬ ∃ m rest, PoolHead l m rest ∧ PoolHashes l) ∨
        ∃ m rest, PoolHead l m rest ∧ PoolHashes l ∧ Fraction m ∧ OwnersBad (fun x => Byt x ∧ ¬ BytN 28 x) rest)
      (∃ m rest, PoolHead l m rest ∧ PoolHashes l ∧
        (¬ Tagged m ∨ Fraction m ∧ OwnersBad (fun x => ¬ Byt x) rest)) := by
  have short : ∀ l : List Item, (∀ m rest, ¬ PoolHead l m rest) → Reports (.throw .invalidArgument : Out Certificate)
      (∃ m rest, PoolHead l m rest ∧ PoolHashes l ∧ Tagged m ∧ ¬ Fraction m)
      ((¬ ∃ m rest, PoolHead l m rest ∧ PoolHashes l) ∨
        ∃ m rest, PoolHead l m rest ∧ PoolHashes l ∧ Fraction m ∧ OwnersBad (fun x => Byt x ∧ ¬ BytN 28 x) rest)
      (∃ m rest, PoolHead l m rest ∧ PoolHashes l ∧
        (¬ Tagged m ∨ Fraction m ∧ OwnersBad (fun x => ¬ Byt x) rest)) := by
    intro l h
    refine reports_inv rfl ?_ (Or.inl ?_) ?_
    · rintro ⟨m, r, h1, _⟩; exact h m r h1
    · rintro ⟨m, r, h1, _⟩; exact h m r h1
    · rintro ⟨m, r, h1, _⟩; exact h m r h1
  have few : ∀ l : List Item, l.length < 7 → ∀ m rest, ¬ PoolHead l m rest := by
    rintro l hl m rest ⟨t, a, b, c, d, r, rfl, _⟩
    simp at hl; omega
  rcases l with _ | ⟨t, _ | ⟨a, _ | ⟨b, _ | ⟨c, _ | ⟨d, _ | ⟨m, _ | ⟨r, rest⟩⟩⟩⟩⟩⟩⟩
  iterate 7 exact short _ (few _ (by simp))
  unfold poolRegDeser
  by_cases hk : Byt a ∧ Byt b ∧ Num c ∧ Num d ∧ Arr m ∧ Byt r
  · have hhead : PoolHead (t :: a :: b :: c :: d :: m :: r :: rest) m rest := poolHead_iff.mpr ⟨rfl, rfl, hk⟩
    have ex : ∀ P : Item → List Item → Prop,
        (∃ m' rest', PoolHead (t :: a :: b :: c :: d :: m :: r :: rest) m' rest' ∧
          PoolHashes (t :: a :: b :: c :: d :: m :: r :: rest) ∧ P m' rest') ↔ (BytN 28 a ∧ BytN 32 b) ∧ P m rest := by
      intro P
      constructor
      · rintro ⟨m', rest', h1, h2, h3⟩
        obtain ⟨rfl, rfl, _⟩ := poolHead_iff.mp h1
        exact ⟨poolHashes_iff.mp h2, h3⟩
      · rintro ⟨h1, h2⟩; exact ⟨m, rest, hhead, poolHashes_iff.mpr h1, h2⟩
    have ex0 : (∃ m' rest', PoolHead (t :: a :: b :: c :: d :: m :: r :: rest) m' rest' ∧
          PoolHashes (t :: a :: b :: c :: d :: m :: r :: rest)) ↔ BytN 28 a ∧ BytN 32 b := by
      simpa using ex (fun _ _ => True)
    rw [ex, ex, ex, ex0]
    obtain ⟨⟨op, ha⟩, ⟨vrf, hb⟩, ⟨pl, hc⟩, ⟨co, hd⟩, ⟨ar, hm⟩, ⟨rw', hr⟩⟩ := hk
    simp only [ha, hb, hc, hd, hm, hr]
    have e1 : BytN 28 a ↔ op.length = 28 := by simp [BytN, ha]
    have e2 : BytN 32 b ↔ vrf.length = 32 := by simp [BytN, hb]
    rw [e1, e2]
    by_cases h1 : op.length = 28
    · by_cases h2 : vrf.length = 32
      · simp only [h1, h2, reqLen, if_true, Out.ok_bind, true_and, not_true_eq_false, false_or, and_self]
        cases m with
        | tag n j =>
          have et : Tagged (.tag n j) := ⟨n, j, rfl⟩
          have ef : Fraction (.tag n j) ↔ (n = 30 ∧ ArrOf (Pair Num fun d => ∃ k, asUint d = some k ∧ k ≠ 0) j) := by
            constructor
            · rintro ⟨j', h, h'⟩; injection h with h1 h2; subst h1; subst h2; exact ⟨rfl, h'⟩
            · rintro ⟨rfl, h⟩; exact ⟨j, rfl, h⟩
          simp only [et, true_and, not_true_eq_false, false_or]
          obtain ⟨q1, q2, q3, q4⟩ := C87_rational n j
          rw [← ef] at q1
          simp only [marginOf]
          cases hq : Rational.deser n j with
          | ok q =>
            rw [hq] at q1
            have hf : Fraction (.tag n j) := by
              by_cases hf : Fraction (.tag n j)
              · exact hf
              · exact absurd (q1.mpr hf) (by simp)
            obtain ⟨o1, o2, o3, o4⟩ := ownersOf_reports rest
            simp only [hf, true_and, not_true_eq_false]
            rw [Out.ok_bind]
            exact reports_map ⟨o1, o2, o3, o4⟩
          | throw e =>
            rcases q4 e hq with rfl | rfl
            · have hf := q1.mp hq
              exact reports_rt rfl hf (by simp [hf]) (by simp [hf])
            · exact absurd hq (by rw [q2]; simp)
          | ub => exact absurd hq (by rw [q3]; simp)
        | _ =>
          refine reports_ub (by simp [marginOf]) ?_ ?_ ?_
          · rintro ⟨⟨n, j, h⟩, _⟩; simp at h
          · rintro ⟨⟨j, h, _⟩, _⟩; simp at h
          · left; rintro ⟨n, j, h⟩; simp at h
      · exact reports_inv (by simp [reqLen, h1, h2]) (by simp [h2]) (by simp [h2]) (by simp [h2])
    · exact reports_inv (by simp [reqLen, h1]) (by simp [h1]) (by simp [h1]) (by simp [h1])
  · have hno : ∀ m' rest', ¬ PoolHead (t :: a :: b :: c :: d :: m :: r :: rest) m' rest' := by
      intro m' rest' h
      exact hk (poolHead_iff.mp h).2.2
    refine cast ?_ (short _ hno)
    congr 1
    show Out.throw .invalidArgument = (match asBstr a, asBstr b, asUint c, asUint d, asArray m, asBstr r with
      | some op, some vrf, some pledge, some cost, some _, some rew => _
      | _, _, _, _, _, _ => _)
    rcases ha : asBstr a with _ | x1
    · rfl
    · rcases hb : asBstr b with _ | x2
      · rfl
      · rcases hc : asUint c with _ | x3
        · rfl
        · rcases hd : asUint d with _ | x4
          · rfl
          · rcases hm : asArray m with _ | x5
            · rfl
            · rcases hr : asBstr r with _ | x6
              · rfl
              · exact absurd ⟨⟨_, ha⟩, ⟨_, hb⟩, ⟨_, hc⟩, ⟨_, hd⟩, ⟨_, hm⟩, ⟨_, hr⟩⟩ hk

/-! ## Scripts -/

theorem scriptItem_eq : ∀ i : Item, scriptItem i = match asArray i with
    | some l => scriptData l
    | none => .ub
  | .tag _ i => by rw [scriptItem, scriptItem_eq i]; simp [asArray, untag]
  | .array data => by simp [scriptItem, asArray, untag]
  | .uint _ => by simp [scriptItem, asArray, untag]
  | .nint _ => by simp [scriptItem, asArray, untag]
  | .bstr _ => by simp [scriptItem, asArray, untag]
  | .tstr _ => by simp [scriptItem, asArray, untag]
  | .map _ => by simp [scriptItem, asArray, untag]
  | .bool _ => by simp [scriptItem, asArray, untag]
  | .null => by simp [scriptItem, asArray, untag]

theorem scriptList_eq : ∀ i : Item, scriptList i = match asArray i with
    | some l => scriptItems l
    | none => .throw .runtimeError
  | .tag _ i => by rw [scriptList, scriptList_eq i]; simp [asArray, untag]
  | .array data => by simp [scriptList, asArray, untag]
  | .uint _ => by simp [scriptList, asArray, untag]
  | .nint _ => by simp [scriptList, asArray, untag]
  | .bstr _ => by simp [scriptList, asArray, untag]
  | .tstr _ => by simp [scriptList, asArray, untag]
  | .map _ => by simp [scriptList, asArray, untag]
  | .bool _ => by simp [scriptList, asArray, untag]
  | .null => by simp [scriptList, asArray, untag]

theorem asArray_size : ∀ (i : Item) {l : List Item}, asArray i = some l → sizeOf l < sizeOf i
  | .tag n i, l, h => by
    have := asArray_size i (l := l) (by simpa [asArray, untag] using h)
    simp only [Item.tag.sizeOf_spec]; omega
  | .array d, l, h => by
    simp [asArray, untag] at h
    subst h
    simp only [Item.array.sizeOf_spec]; omega
  | .uint _, l, h => by simp [asArray, untag] at h
  | .nint _, l, h => by simp [asArray, untag] at h
  | .bstr _, l, h => by simp [asArray, untag] at h
  | .tstr _, l, h => by simp [asArray, untag] at h
  | .map _, l, h => by simp [asArray, untag] at h
  | .bool _, l, h => by simp [asArray, untag] at h
  | .null, l, h => by simp [asArray, untag] at h

/-- A child is read. -/
def GoodChild (c : Item) : Prop := ∃ l s, asArray c = some l ∧ scriptData l = .ok s

theorem scriptItems_good : ∀ cs : List Item, (∀ c ∈ cs, GoodChild c) → ∃ r, scriptItems cs = .ok r
  | [], _ => ⟨[], rfl⟩
  | c :: cs, h => by
    obtain ⟨l, s, h1, h2⟩ := h c (by simp)
    obtain ⟨r, hr⟩ := scriptItems_good cs fun c hc => h c (by simp [hc])
    exact ⟨s :: r, by simp [scriptItems, scriptItem_eq, h1, h2, hr, Out.bind]⟩

theorem scriptItems_bad : ∀ (cs : List Item) (c : Item) (rest : List Item), (∀ c ∈ cs, GoodChild c) → ¬ GoodChild c →
    fate (scriptItems (cs ++ c :: rest)) = match asArray c with
      | some l => fate (scriptData l)
      | none => .undefined
  | [], c, rest, _, h => by
    simp only [List.nil_append, scriptItems, scriptItem_eq]
    rcases ha : asArray c with _ | l
    · rfl
    · rcases hs : scriptData l with s | e | _
      · exact absurd ⟨l, s, ha, hs⟩ h
      · simp [Out.bind, hs, fate]
      · simp [Out.bind, hs, fate]
  | x :: cs, c, rest, hg, h => by
    obtain ⟨l, s, h1, h2⟩ := hg x (by simp)
    have ih := scriptItems_bad cs c rest (fun c hc => hg c (by simp [hc])) h
    rw [← ih]
    simp only [List.cons_append, scriptItems, scriptItem_eq, h1, h2, Out.bind]
    rcases scriptItems (cs ++ c :: rest) with _ | _ | _ <;> rfl

theorem children_cases : ∀ cs : List Item, (∀ c ∈ cs, GoodChild c) ∨
    ∃ pre c rest, cs = pre ++ c :: rest ∧ (∀ c ∈ pre, GoodChild c) ∧ ¬ GoodChild c
  | [] => Or.inl (by simp)
  | c :: cs => by
    by_cases h : GoodChild c
    · rcases children_cases cs with h1 | ⟨pre, x, rest, rfl, h1, h2⟩
      · exact Or.inl (by simpa [h] using h1)
      · exact Or.inr ⟨c :: pre, x, rest, rfl, by simpa [h] using h1, h2⟩
    · exact Or.inr ⟨[], c, cs, rfl, by simp, h⟩

theorem fate_reads {α} {x : Out α} : fate x = .reads ↔ ∃ a, x = .ok a := by
  rcases x with a | e | _ <;> simp [fate]

/-- Types 1 and 2 read the same list. -/
theorem scriptData_list {t a : Item} (h : asUint t = some 1 ∨ asUint t = some 2) :
    fate (scriptData [t, a]) = fate (scriptList a) := by
  rcases h with h | h <;> (simp only [scriptData, h, List.isEmpty_nil, if_true]; rcases scriptList a with _ | _ | _ <;> rfl)

theorem scriptEnds_fate {l : List Item} {f : Fate} (h : ScriptEnds l f) : fate (scriptData l) = f := by
  have good : ∀ {cs : List Item} {arr : Item → List Item}, (∀ c ∈ cs, asArray c = some (arr c)) →
      (∀ c ∈ cs, fate (scriptData (arr c)) = .reads) → ∀ c ∈ cs, GoodChild c := by
    intro cs arr h1 h2 c hc
    obtain ⟨s, hs⟩ := fate_reads.1 (h2 c hc)
    exact ⟨arr c, s, h1 c hc, hs⟩
  induction h with
  | none => rfl
  | one => rfl
  | @type t a r h =>
    have : asUint t = none := by simpa [Num, Option.eq_none_iff_forall_ne_some] using h
    simp [scriptData, this, fate]
  | @key t a h hb =>
    obtain ⟨b, h1, h2⟩ := hb
    simp [scriptData, h, pubkeyDeser, h1, reqLen, h2, fate]
  | @badKey t a r h hb =>
    simp only [scriptData, h]
    rcases r with _ | ⟨x, r⟩
    · simp only [pubkeyDeser]
      rcases ha : asBstr a with _ | b
      · rfl
      · have : b.length ≠ 28 := fun hl => hb ⟨rfl, b, ha, hl⟩
        simp [reqLen, this, fate]
    · rfl
  | @extra t a r h hr =>
    rcases h with h | h <;> simp [scriptData, h, hr, fate]
  | @notList t a h ha =>
    have : asArray a = none := by simpa [Arr, Option.eq_none_iff_forall_ne_some] using ha
    rw [scriptData_list h, scriptList_eq, this]
    rfl
  | @list t a cs arr h ha hc _ ih =>
    obtain ⟨r, hr⟩ := scriptItems_good cs (good hc ih)
    rw [scriptData_list h, scriptList_eq, ha]
    simp [hr, fate]
  | @child t a cs c rest l f arr h ha hc _ hl _ hf ih ih' =>
    rw [scriptData_list h, scriptList_eq, ha]
    simp only
    rw [scriptItems_bad cs c rest (good hc ih), hl]
    · exact ih'
    · rintro ⟨l', s, h1, h2⟩
      rw [hl] at h1
      cases h1
      exact hf (by rw [← ih', h2]; rfl)
  | @badChild t a cs c rest arr h ha hc _ hl ih =>
    have hn : asArray c = none := by simpa [Arr, Option.eq_none_iff_forall_ne_some] using hl
    rw [scriptData_list h, scriptList_eq, ha]
    simp only
    rw [scriptItems_bad cs c rest (good hc ih), hn]
    rintro ⟨l', s, h1, h2⟩
    rw [hn] at h1
    cases h1
  | @count t a h ha =>
    obtain ⟨n, hn⟩ := ha
    simp [scriptData, h, nOfKDeser, hn, fate]
  | @badCount t a r h ha =>
    simp only [scriptData, h]
    rcases r with _ | ⟨x, r⟩
    · have : asUint a = none := by
        rcases hn : asUint a with _ | n
        · rfl
        · exact absurd ⟨rfl, n, hn⟩ ha
      simp [nOfKDeser, this, fate]
    · rfl
  | @unknown t a r n h hn =>
    obtain ⟨m, rfl⟩ : ∃ m, n = m + 4 := ⟨n - 4, by omega⟩
    simp [scriptData, h, fate]

theorem scriptEnds_data : ∀ (n : Nat) (l : List Item), sizeOf l < n → ScriptEnds l (fate (scriptData l)) := by
  intro n
  induction n with
  | zero => intro l h; omega
  | succ n ih =>
    intro l hn
    rcases l with _ | ⟨t, _ | ⟨a, r⟩⟩
    · exact .none
    · exact .one
    have lst : asUint t = some 1 ∨ asUint t = some 2 → ScriptEnds (t :: a :: r) (fate (scriptData (t :: a :: r))) := by
      intro ht
      by_cases hr : r = []
      · subst hr
        rw [scriptData_list ht, scriptList_eq]
        rcases ha : asArray a with _ | cs
        · exact .notList ht (by simp [Arr, ha])
        · have hs := asArray_size a ha
          simp only [List.cons.sizeOf_spec, List.nil.sizeOf_spec] at hn
          have sub : ∀ c ∈ cs, ∀ l, asArray c = some l → ScriptEnds l (fate (scriptData l)) := by
            intro c hc l hl
            have h1 := asArray_size c hl
            have h2 := List.sizeOf_lt_of_mem hc
            exact ih l (by omega)
          have good : ∀ pre : List Item, (∀ c ∈ pre, c ∈ cs) → (∀ c ∈ pre, GoodChild c) →
              (∀ c ∈ pre, asArray c = some ((asArray c).getD [])) ∧ ∀ c ∈ pre, ScriptEnds ((asArray c).getD []) .reads := by
            intro pre hp hg
            constructor
            · intro c hc
              obtain ⟨l, s, h1, _⟩ := hg c hc
              simp [h1]
            · intro c hc
              obtain ⟨l, s, h1, h2⟩ := hg c hc
              have := sub c (hp c hc) l h1
              rw [h2] at this
              simpa [h1, fate] using this
          rcases children_cases cs with hg | ⟨pre, c, rest, rfl, hg, hb⟩
          · obtain ⟨r, hr⟩ := scriptItems_good cs hg
            obtain ⟨g1, g2⟩ := good cs (fun _ h => h) hg
            simp only [hr, fate]
            exact .list (fun c => (asArray c).getD []) ht ha g1 g2
          · obtain ⟨g1, g2⟩ := good pre (fun c hc => by simp [hc]) hg
            simp only
            rw [scriptItems_bad pre c rest hg hb]
            rcases hc : asArray c with _ | l
            · exact .badChild (fun c => (asArray c).getD []) ht ha g1 g2 (by simp [Arr, hc])
            · refine .child (fun c => (asArray c).getD []) ht ha g1 g2 hc (sub c (by simp) l hc) ?_
              intro hf
              obtain ⟨s, hs⟩ := fate_reads.1 hf
              exact hb ⟨l, s, hc, hs⟩
      · have : fate (scriptData (t :: a :: r)) = .throws .runtimeError := scriptEnds_fate (.extra ht hr)
        rw [this]
        exact .extra ht hr
    rcases ht : asUint t with _ | _ | _ | _ | _ | k
    · have h : ScriptEnds (t :: a :: r) _ := .type (by simp [Num, ht])
      rwa [scriptEnds_fate h]
    · by_cases hb : r = [] ∧ BytN 28 a
      · obtain ⟨rfl, hb⟩ := hb
        have h : ScriptEnds [t, a] _ := .key ht hb
        rwa [scriptEnds_fate h]
      · have h : ScriptEnds (t :: a :: r) _ := .badKey ht hb
        rwa [scriptEnds_fate h]
    · exact lst (Or.inl ht)
    · exact lst (Or.inr ht)
    · by_cases hb : r = [] ∧ Num a
      · obtain ⟨rfl, hb⟩ := hb
        have h : ScriptEnds [t, a] _ := .count ht hb
        rwa [scriptEnds_fate h]
      · have h : ScriptEnds (t :: a :: r) _ := .badCount ht hb
        rwa [scriptEnds_fate h]
    · have h : ScriptEnds (t :: a :: r) _ := .unknown ht (by omega)
      rwa [scriptEnds_fate h]

/-- **C87**: how reading a multisig script ends, for every array. -/
theorem C87_script (l : List Item) (f : Fate) : fate (Script.deser .empty l) = f ↔ ScriptEnds l f := by
  have h : Script.deser .empty l = scriptData l := by
    unfold Script.deser
    rcases l with _ | ⟨t, _ | ⟨a, r⟩⟩
    · rfl
    · rfl
    · rcases ht : asUint t with _ | _ | _ | _ | _ | k <;> simp [ht, scriptData]
  rw [h]
  exact ⟨fun hf => hf ▸ scriptEnds_data _ l (Nat.lt_succ_self _), scriptEnds_fate⟩

/-! ## Instantaneous rewards -/

theorem entryBad_cons {Bad : Item → Item → Prop} {k v : Item} {r : List Item} :
    EntryBad Bad (k :: v :: r) ↔ Bad k v ∨ ArrOf (Pair Bit (BytN 28)) k ∧ Num v ∧ EntryBad Bad r := by
  constructor
  · intro h
    cases h with
    | here h => exact Or.inl h
    | later h1 h2 h3 => exact Or.inr ⟨h1, h2, h3⟩
  · rintro (h | ⟨h1, h2, h3⟩)
    · exact .here h
    · exact .later h1 h2 h3

theorem entryBad_short {Bad : Item → Item → Prop} {l : List Item} (h : l.length < 2) : ¬ EntryBad Bad l := by
  intro hb
  cases hb <;> (simp at h; try omega)

theorem mirLoop_reports : ∀ l : List Item, Reports (mirLoop l)
    (EntryBad (fun k _ => Arr k ∧ ¬ ArrOf (Pair Bit Byt) k) l)
    (EntryBad (fun k _ => ArrOf (Pair Bit Byt) k ∧ ¬ ArrOf (Pair Bit (BytN 28)) k) l)
    (EntryBad (fun k v => ¬ Arr k ∨ ArrOf (Pair Bit (BytN 28)) k ∧ ¬ Num v) l)
  | [] => reports_ok rfl (entryBad_short (by simp)) (entryBad_short (by simp)) (entryBad_short (by simp))
  | [_] => reports_ok rfl (entryBad_short (by simp)) (entryBad_short (by simp)) (entryBad_short (by simp))
  | k :: v :: r => by
    simp only [entryBad_cons]
    have ih := mirLoop_reports r
    rcases hk : asArray k with _ | arr
    · have e : ∀ P, ¬ ArrOf P k := by simp [ArrOf, hk]
      have e' : ¬ Arr k := by simp [Arr, hk]
      exact reports_ub (by simp [mirLoop, hk, deref]) (by simp [e, e']) (by simp [e]) (by simp [e'])
    · have e : ∀ P : List Item → Prop, ArrOf P k ↔ P arr := by intro P; simp [ArrOf, hk]
      have e' : Arr k := ⟨arr, hk⟩
      have sub : Pair Bit (BytN 28) arr → Pair Bit Byt arr := by
        rintro ⟨a, b, h, h1, x, h2, _⟩
        exact ⟨a, b, h, h1, x, h2⟩
      simp only [e, e', true_and, not_true_eq_false, false_or]
      obtain ⟨h1, h2, h3, h4⟩ := C87_credential arr
      cases hc : StakeCredential.deser arr with
      | ok a =>
        rw [hc] at h1 h2
        have hp : Pair Bit Byt arr := by
          by_cases hp : Pair Bit Byt arr
          · exact hp
          · exact absurd (h1.mpr hp) (by simp)
        have hq : Pair Bit (BytN 28) arr := by
          by_cases hq : Pair Bit (BytN 28) arr
          · exact hq
          · exact absurd (h2.mpr ⟨hp, hq⟩) (by simp)
        rcases hv : asUint v with _ | n
        · have nv : ¬ Num v := by simp [Num, hv]
          exact reports_ub (by simp [mirLoop, hk, deref, hc, hv]) (by simp [hp, nv]) (by simp [hp, hq, nv]) (by simp [hq, nv])
        · have nv : Num v := ⟨n, hv⟩
          simp only [hp, hq, nv, not_true_eq_false, and_false, false_or, true_and]
          have : mirLoop (k :: v :: r) = (mirLoop r).bind (fun x => .ok ((a, n) :: x)) := by
            simp [mirLoop, hk, deref, hc, hv]
            rfl
          rw [this]
          exact reports_map ih
      | throw e =>
        rw [hc] at h1 h2
        have nq : ¬ Pair Bit (BytN 28) arr := by
          intro hq
          rcases h4 e hc with rfl | rfl
          · exact h1.mp rfl (sub hq)
          · exact (h2.mp rfl).2 hq
        rcases h4 e hc with rfl | rfl
        · have hp := h1.mp rfl
          exact reports_rt (by simp [mirLoop, hk, deref, hc]) (Or.inl hp) (by simp [hp, nq]) (by simp [nq])
        · have hp := h2.mp rfl
          exact reports_inv (by simp [mirLoop, hk, deref, hc]) (by simp [hp.1, nq]) (Or.inl hp) (by simp [nq])
      | ub => exact absurd hc (by rw [h3]; simp)

/-- **C87**: instantaneous rewards `[source, {credential: amount}]`. -/
theorem C87_rewards (old : List (StakeCredential × Nat)) (l : List Item) :
    Reports (MIR.deser old l)
      (¬ Pair Bit Mp l ∨ RewardBad (fun k _ => Arr k ∧ ¬ ArrOf (Pair Bit Byt) k) l)
      (RewardBad (fun k _ => ArrOf (Pair Bit Byt) k ∧ ¬ ArrOf (Pair Bit (BytN 28)) k) l)
      (RewardBad (fun k v => ¬ Arr k ∨ ArrOf (Pair Bit (BytN 28)) k ∧ ¬ Num v) l) := by
  unfold MIR.deser RewardBad
  rcases l with _ | ⟨x, _ | ⟨y, _ | ⟨z, l⟩⟩⟩
  · exact reports_rt rfl (Or.inl pair_nil) pair_nil pair_nil
  · exact reports_rt rfl (Or.inl pair_one) pair_one pair_one
  · simp only [pair_two]
    rcases hx : asUint x with _ | s
    · have : ¬ Bit x := by simp [Bit, hx]
      exact reports_rt (by simp [hx]) (by simp [this]) (by simp [this]) (by simp [this])
    · rcases hy : asMap y with _ | kvs
      · have e : ¬ Mp y := by simp [Mp, hy]
        exact reports_rt (by simp [hx, hy]) (by simp [e]) (by simp) (by simp)
      · have e : Mp y := ⟨kvs, hy⟩
        have e' : ∀ P : List Item → Prop, (∃ l, some kvs = some l ∧ P l) ↔ P kvs := by simp
        simp only [hx, hy, e, e', and_true]
        rcases s with _ | _ | s
        · have hb : Bit x := ⟨0, hx, by omega⟩
          simp only [hb, not_true_eq_false, false_or, true_and, sourceOf]
          exact reports_map (mirLoop_reports kvs)
        · have hb : Bit x := ⟨1, hx, by omega⟩
          simp only [hb, not_true_eq_false, false_or, true_and, sourceOf]
          exact reports_map (mirLoop_reports kvs)
        · have hb : ¬ Bit x := by simp [Bit, hx]
          exact reports_rt (by simp [sourceOf]) (by simp [hb]) (by simp [hb]) (by simp [hb])
  · exact reports_rt rfl (Or.inl pair_more) pair_more pair_more

/-- A reward certificate `[6, [source, map]]`: the second element is not checked to be an array. -/
theorem mirCert_reports (l : List Item) (t a : Item) :
    Reports (mirDeser (t :: a :: l))
      (∃ r, asArray a = some r ∧ (¬ Pair Bit Mp r ∨ RewardBad (fun k _ => Arr k ∧ ¬ ArrOf (Pair Bit Byt) k) r))
      (∃ r, asArray a = some r ∧ RewardBad (fun k _ => ArrOf (Pair Bit Byt) k ∧ ¬ ArrOf (Pair Bit (BytN 28)) k) r)
      (¬ Arr a ∨ ∃ r, asArray a = some r ∧ RewardBad (fun k v => ¬ Arr k ∨ ArrOf (Pair Bit (BytN 28)) k ∧ ¬ Num v) r) := by
  rcases ha : asArray a with _ | r
  · have e : ¬ Arr a := by simp [Arr, ha]
    exact reports_ub (by simp [mirDeser, Cbor.get, ha, deref]) (by simp) (by simp) (by simp [e])
  · have e : Arr a := ⟨r, ha⟩
    have e' : ∀ P : List Item → Prop, (∃ l, some r = some l ∧ P l) ↔ P r := by simp
    have : mirDeser (t :: a :: l) = (MIR.deser [] r).bind (fun m => .ok (.mir m)) := by
      simp [mirDeser, Cbor.get, ha, deref]
      rfl
    rw [this, e', e', e']
    simp only [e, not_true_eq_false, false_or]
    exact reports_map (C87_rewards [] r)

/-! ## Certificates and the bytes around them -/

/-- **C87**: how `Certificate::deserialize` reports each kind of malformed certificate array, whatever the
object held before. -/
theorem C87_certificate (old : Certificate) (l : List Item) :
    (l.length < 2 → Certificate.deser old l = .throw .runtimeError) ∧
    ∀ t a r, l = t :: a :: r →
      (¬ Num t → Certificate.deser old l = .throw .runtimeError) ∧
      (asUint t = some 0 ∨ asUint t = some 1 → Reports (Certificate.deser old l)
        (¬ Pair Any (ArrOf (Pair Bit Byt)) l)
        (Pair Any (ArrOf (Pair Bit Byt)) l ∧ ¬ Pair Any (ArrOf (Pair Bit (BytN 28))) l) False) ∧
      (asUint t = some 2 → Reports (Certificate.deser old l)
        (¬ Triple Any (ArrOf (Pair Bit Byt)) Byt l)
        (Triple Any (ArrOf (Pair Bit Byt)) Byt l ∧ ¬ Triple Any (ArrOf (Pair Bit (BytN 28))) (BytN 28) l) False) ∧
      (asUint t = some 3 → Reports (Certificate.deser old l)
        (∃ m rest, PoolHead l m rest ∧ PoolHashes l ∧ Tagged m ∧ ¬ Fraction m)
        ((¬ ∃ m rest, PoolHead l m rest ∧ PoolHashes l) ∨
          ∃ m rest, PoolHead l m rest ∧ PoolHashes l ∧ Fraction m ∧ OwnersBad (fun x => Byt x ∧ ¬ BytN 28 x) rest)
        (∃ m rest, PoolHead l m rest ∧ PoolHashes l ∧
          (¬ Tagged m ∨ Fraction m ∧ OwnersBad (fun x => ¬ Byt x) rest))) ∧
      (asUint t = some 4 → Reports (Certificate.deser old l) (¬ Triple Any (BytN 28) Num l) False False) ∧
      (asUint t = some 5 → Certificate.deser old l = .ub) ∧
      (asUint t = some 6 → Reports (Certificate.deser old l)
        (∃ r, asArray a = some r ∧ (¬ Pair Bit Mp r ∨ RewardBad (fun k _ => Arr k ∧ ¬ ArrOf (Pair Bit Byt) k) r))
        (∃ r, asArray a = some r ∧ RewardBad (fun k _ => ArrOf (Pair Bit Byt) k ∧ ¬ ArrOf (Pair Bit (BytN 28)) k) r)
        (¬ Arr a ∨ ∃ r, asArray a = some r ∧
          RewardBad (fun k v => ¬ Arr k ∨ ArrOf (Pair Bit (BytN 28)) k ∧ ¬ Num v) r)) ∧
      (∀ n, asUint t = some n → 7 ≤ n → Certificate.deser old l = .ok old) := by
  constructor
  · intro h
    rcases l with _ | ⟨x, _ | ⟨y, l⟩⟩
    · rfl
    · rfl
    · simp at h; omega
  · rintro t a r rfl
    refine ⟨?_, ?_, ?_, ?_, ?_, ?_, ?_, ?_⟩
    · intro h
      have : asUint t = none := by simpa [Num, Option.eq_none_iff_forall_ne_some] using h
      simp [Certificate.deser, this]
    · rintro (h | h)
      · rw [show Certificate.deser old (t :: a :: r) = credCert .stakeReg (t :: a :: r) by simp [Certificate.deser, h]]
        exact C87_credential_certificate _ _
      · rw [show Certificate.deser old (t :: a :: r) = credCert .stakeDereg (t :: a :: r) by simp [Certificate.deser, h]]
        exact C87_credential_certificate _ _
    · intro h
      rw [show Certificate.deser old (t :: a :: r) = delegDeser (t :: a :: r) by simp [Certificate.deser, h]]
      exact C87_delegation _
    · intro h
      rw [show Certificate.deser old (t :: a :: r) = poolRegDeser (t :: a :: r) by simp [Certificate.deser, h]]
      exact C87_pool_registration _
    · intro h
      rw [show Certificate.deser old (t :: a :: r) = retireDeser (t :: a :: r) by simp [Certificate.deser, h]]
      exact C87_retirement _
    · intro h
      have hb : asBstr t = none := by
        simp only [asUint] at h
        simp only [asBstr]
        split at h <;> simp_all
      simp [Certificate.deser, h, genesisDeser, Cbor.get, hb, deref]
    · intro h
      rw [show Certificate.deser old (t :: a :: r) = mirDeser (t :: a :: r) by simp [Certificate.deser, h]]
      exact mirCert_reports _ _ _
    · intro n h hn
      obtain ⟨m, rfl⟩ : ∃ m, n = m + 7 := ⟨n - 7, by omega⟩
      simp [Certificate.deser, h]

/-- **C87**: bytes that are no CBOR, or whose first item is of the wrong kind, are a `runtime_error` for
every type; nothing else happens before the item is read. -/
theorem C87_bytes {α} (b : Bytes) (fa fm : List Item → Out α) (ft : Nat → Item → Out α) :
    (deserializeArray fa b = match (parse b).bind asArray with
      | some l => fa l
      | none => .throw .runtimeError) ∧
    (deserializeMap fm b = match (parse b).bind asMap with
      | some l => fm l
      | none => .throw .runtimeError) ∧
    ((∀ n i, parse b ≠ some (.tag n i)) → deserializeTag ft b = .throw .runtimeError) ∧
    (∀ n i, parse b = some (.tag n i) → deserializeTag ft b = ft n i) := by
  refine ⟨?_, ?_, ?_, ?_⟩
  · unfold deserializeArray
    rcases parse b with _ | i
    · rfl
    · rcases h : asArray i <;> simp [h]
  · unfold deserializeMap
    rcases parse b with _ | i
    · rfl
    · rcases h : asMap i <;> simp [h]
  · intro h
    unfold deserializeTag
    rcases hp : parse b with _ | i
    · rfl
    · cases i <;> simp
      exact absurd hp (h _ _)
  · intro n i h
    simp [deserializeTag, h]

/-- Failures that occur, one of each kind: a short input id and a short pool id in a delegation are
`invalid_argument`, an output without amount and a short pool id in a retirement are `runtime_error`; a list of
scripts whose second child is cut short; a genesis delegation. -/
example : TxIn.deser [.bstr [1], .uint 0] = .throw .invalidArgument ∧
    TxOut.deser [.bstr [1]] = .throw .runtimeError ∧
    Certificate.deser .empty [.uint 2, .array [.uint 0, .bstr (List.replicate 28 1)], .bstr [1]] = .throw .invalidArgument ∧
    Certificate.deser .empty [.uint 4, .bstr [1], .uint 5] = .throw .runtimeError ∧
    Certificate.deser .empty [.uint 5, .bstr [1], .bstr [2]] = .ub ∧
    Script.deser .empty [.uint 1, .array [.array [.uint 0, .bstr (List.replicate 28 1)], .array [.uint 0]]] =
      .throw .invalidArgument ∧
    Script.deser .empty [.uint 2, .uint 7] = .throw .runtimeError ∧
    MIR.deser [] [.uint 0, .map [.array [.uint 0, .bstr [1]], .uint 3]] = .throw .invalidArgument :=
  ⟨rfl, rfl, rfl, rfl, rfl, rfl, rfl, rfl⟩

end Cardano.Ledger
