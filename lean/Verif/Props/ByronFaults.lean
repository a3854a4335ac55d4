import Verif.Props.ByronMalformed
import Verif.Props.LedgerFaults
import Verif.Spec.ByronFaults

/-! # C111: which bytes are read as a Byron address, refused, or leave defined behaviour -/

namespace Cardano.Byron

open Cardano Cardano.Cbor Cardano.Spec.LedgerFaults Cardano.Spec.Rfc8949 Cardano.Spec.ByronFaults Cardano.Ledger

theorem begins_iff {b : Bytes} {i : Item} : Begins b i ↔ parse b = some i := (C47_parse_iff b i).symm

theorem begins_unique {b : Bytes} {i j : Item} (h : Begins b i) (h' : Begins b j) : i = j := by
  rw [begins_iff] at h h'; rw [h] at h'; exact Option.some.inj h'

theorem exact_attr {α} (k : Nat) (attrs : List Item) (good : Item → Prop) (dflt : α) (read : Item → Out α)
    (hr : ∀ i, Exact (read i) (good i) (¬ good i)) :
    Exact (match lookup k attrs with
      | none => .ok dflt
      | some v => deref (asBstr v) >>= fun b => cborDecode b >>= fun i => read i)
      (AttrGood good k attrs) (AttrFatal good k attrs) := by
  rw [Ledger.lookup_valueAt]
  unfold AttrGood AttrFatal
  cases hv : valueAt k attrs with
  | none => exact (exact_ok _).congr (by simp) (by simp)
  | some v =>
    simp only [Option.some.injEq, forall_eq', exists_eq_left']
    cases hb : asBstr v with
    | none =>
      have h1 := asBstr_none.mp hb
      refine exact_ub.congr ?_ ?_
      · simp only [false_iff]
        rintro ⟨b, i, h, -⟩
        exact h1 ⟨b, h⟩
      · simp [h1]
    | some b =>
      have h1 := asBstr_iff.mp hb
      have hy : IsBytes v := ⟨b, h1⟩
      simp only [deref, Out.ok_bind, cborDecode]
      cases hp : parse b with
      | none =>
        refine (exact_throw .invalidArgument).congr ?_ ?_
        · simp only [false_iff]
          rintro ⟨b', i, h, h2, -⟩
          rw [h1] at h; injection h with h; subst h
          rw [begins_iff.mp h2] at hp; cases hp
        · simp only [false_iff]
          rintro (h | ⟨b', i, h, h2, -⟩)
          · exact h hy
          · rw [h1] at h; injection h with h; subst h
            rw [begins_iff.mp h2] at hp; cases hp
      | some i =>
        simp only [Out.ok_bind]
        refine (hr i).congr ?_ ?_
        · constructor
          · intro h; exact ⟨b, i, h1, begins_iff.mpr hp, h⟩
          · rintro ⟨b', i', h, h2, h3⟩
            rw [h1] at h; injection h with h; subst h
            rw [begins_unique (begins_iff.mpr hp) h2]; exact h3
        · constructor
          · intro h; exact .inr ⟨b, i, h1, begins_iff.mpr hp, h⟩
          · rintro (h | ⟨b', i', h, h2, h3⟩)
            · exact absurd hy h
            · rw [h1] at h; injection h with h; subst h
              rw [begins_unique (begins_iff.mpr hp) h2]; exact h3

theorem exact_deref_bytes (i : Item) : Exact (deref (asBstr i)) (IsBytes i) (¬ IsBytes i) := by
  cases h : asBstr i with
  | none => exact exact_ub.congr (by simp [asBstr_none.mp h]) (by simp [asBstr_none.mp h])
  | some b =>
    have : IsBytes i := ⟨b, asBstr_iff.mp h⟩
    exact (exact_ok _).congr (by simp [this]) (by simp [this])

theorem exact_ciphertext (attrs : List Item) : Exact (decodeCiphertext attrs) (AttrGood IsBytes 1 attrs) (AttrFatal IsBytes 1 attrs) :=
  exact_attr 1 attrs IsBytes [] (fun i => deref (asBstr i)) exact_deref_bytes

theorem exact_magic (attrs : List Item) : Exact (decodeMagic attrs) (AttrGood IsUint 2 attrs) (AttrFatal IsUint 2 attrs) := by
  refine exact_attr 2 attrs IsUint 0 (fun i => deref (asUint i) >>= fun n => pure (n % 2 ^ 32)) fun i => ?_
  cases h : asUint i with
  | none => exact exact_ub.congr (by simp [asUint_none.mp h]) (by simp [asUint_none.mp h])
  | some b =>
    have : IsUint i := ⟨b, asUint_iff.mp h⟩
    exact (exact_ok _).congr (by simp [this]) (by simp [this])

/-- Reading a payload. -/
def readPayload (j : Item) : Out Addr := do
  let parr ← deref (asArray j)
  let rootItem ← get parr 0
  let attrItem ← get parr 1
  let typeItem ← get parr 2
  let rootBytes ← deref (asBstr rootItem)
  let root ← copyRoot rootBytes
  let attrs ← deref (asMap attrItem)
  let ciphertext ← decodeCiphertext attrs
  let magic ← decodeMagic attrs
  let t ← deref (asUint typeItem)
  let type ← uintToType t
  return ⟨root, ciphertext, magic, type⟩

theorem head_unique {j : Item} {a a' : List Item} {t t' : Item} (h : Head j a t) (h' : Head j a' t') : a = a' ∧ t = t' := by
  obtain ⟨r, m, more, root, h1, h2, h3, h4⟩ := h
  obtain ⟨r', m', more', root', g1, g2, g3, g4⟩ := h'
  rw [h1] at g1
  simp only [Item.array.injEq, List.cons.injEq] at g1
  obtain ⟨rfl, rfl, rfl, -⟩ := g1
  rw [h4] at g4
  injection g4 with g4
  exact ⟨g4, rfl⟩

theorem exact_payload (j : Item) : Exact (readPayload j) (PayloadGood j) (PayloadFatal j) := by
  by_cases hh : ∃ attrs type, Head j attrs type
  · obtain ⟨attrs, type, hd⟩ := hh
    have key : readPayload j = (copyRoot (((asArray j).bind fun l => l[0]?.bind asBstr).getD []) >>= fun root =>
        decodeCiphertext attrs >>= fun c => decodeMagic attrs >>= fun m => deref (asUint type) >>= fun t =>
        uintToType t >>= fun ty => pure ⟨root, c, m, ty⟩) ∧
        ∃ x, copyRoot (((asArray j).bind fun l => l[0]?.bind asBstr).getD []) = .ok x := by
      obtain ⟨r, m, more, root, h1, h2, h3, h4⟩ := hd
      have e1 := asArray_iff.mpr h1
      have e2 := asBstr_iff.mpr h2
      have e3 := asMap_iff.mpr h4
      constructor
      · unfold readPayload
        simp only [e1, deref, Out.ok_bind, Cbor.get, List.getElem?_cons_zero, List.getElem?_cons_succ, e2, e3,
          Option.bind_some, Option.getD_some]
      · simp only [e1, Option.bind_some, List.getElem?_cons_zero, e2, Option.getD_some]
        exact ⟨_, by unfold copyRoot; rw [if_pos h3]⟩
    obtain ⟨key, x, hx⟩ := key
    rw [key, hx, Out.ok_bind]
    have ht : ∀ c m, Exact (deref (asUint type) >>= fun t => uintToType t >>= fun ty => pure (⟨x, c, m, ty⟩ : Addr))
        (∃ n, bare type = .uint n ∧ n ≤ 2) (¬ IsUint type) := by
      intro c m
      cases h : asUint type with
      | none =>
        have h1 := asUint_none.mp h
        refine exact_ub.congr ?_ (by simp [h1])
        simp only [false_iff]
        rintro ⟨n, hn, -⟩
        exact h1 ⟨n, hn⟩
      | some n =>
        have h1 := asUint_iff.mp h
        have h2 : IsUint type := ⟨n, h1⟩
        simp only [deref, Out.ok_bind]
        have e : (∃ n, bare type = .uint n ∧ n ≤ 2) ↔ n ≤ 2 := by rw [h1]; simp
        refine Exact.congr (g := n ≤ 2) (f := False) ?_ e.symm (by simp [h2])
        match n with
        | 0 => exact (exact_ok _).congr (by simp) Iff.rfl
        | 1 => exact (exact_ok _).congr (by simp) Iff.rfl
        | 2 => exact (exact_ok _).congr (by simp) Iff.rfl
        | n + 3 => exact (exact_throw .invalidArgument).congr (by simp) Iff.rfl
    refine ((exact_ciphertext attrs).bind fun c _ => (exact_magic attrs).bind fun m _ => ht c m).congr ?_ ?_
    · constructor
      · rintro ⟨g1, g2, n, g3, g4⟩
        exact ⟨attrs, type, n, hd, g1, g2, g3, g4⟩
      · rintro ⟨attrs', type', n, hd', g1, g2, g3, g4⟩
        obtain ⟨rfl, rfl⟩ := head_unique hd hd'
        exact ⟨g1, g2, n, g3, g4⟩
    · constructor
      · intro h
        exact .inr ⟨attrs, type, hd, h⟩
      · rintro (h | ⟨attrs', type', hd', h⟩)
        · exact absurd ⟨attrs, type, hd⟩ h
        · obtain ⟨rfl, rfl⟩ := head_unique hd hd'
          exact h
  · have hg : False ↔ PayloadGood j := by
      simp only [false_iff]
      rintro ⟨attrs, type, n, hd, -⟩
      exact hh ⟨attrs, type, hd⟩
    have hf : True ↔ PayloadFatal j := by
      simp only [true_iff]
      exact .inl hh
    · have e : readPayload j = .ub := by
        unfold readPayload
        cases h1 : asArray j with
        | none => rfl
        | some l =>
          match l with
          | [] => rfl
          | [a] => rfl
          | [a, b] => rfl
          | r :: m :: t :: more =>
            simp only [deref, Out.ok_bind, Cbor.get, List.getElem?_cons_zero, List.getElem?_cons_succ]
            cases h2 : asBstr r with
            | none => rfl
            | some root =>
              simp only [Out.ok_bind, copyRoot]
              by_cases h3 : root.length ≤ 28
              · rw [if_pos h3]
                cases h4 : asMap m with
                | none => rfl
                | some attrs =>
                  exact absurd ⟨attrs, t, r, m, more, root, asArray_iff.mp h1, asBstr_iff.mp h2, h3, asMap_iff.mp h4⟩ hh
              · rw [if_neg h3]; rfl
      rw [e]; exact exact_ub.congr hg hf

theorem envelope_unique {i : Item} {p p' : Bytes} {c c' : Nat} (h : Envelope i p c) (h' : Envelope i p' c') : p = p' ∧ c = c' := by
  obtain ⟨a, b, more, h1, h2, h3⟩ := h
  obtain ⟨a', b', more', g1, g2, g3⟩ := h'
  rw [h1] at g1
  simp only [Item.array.injEq, List.cons.injEq] at g1
  obtain ⟨rfl, rfl, -⟩ := g1
  rw [h2] at g2; rw [h3] at g3
  injection g2 with g2; injection g3 with g3
  exact ⟨g2, g3⟩

theorem exact_body (b : Bytes) : Exact (fromCBORBody b) (AddressGood crc32 b) (AddressFatal crc32 b) := by
  have e : fromCBORBody b = (cborDecode b >>= fun item => deref (asArray item) >>= fun arr =>
      (get arr 0 >>= fun i => deref (asBstr i)) >>= fun p => (get arr 1 >>= fun i => deref (asUint i)) >>= fun c =>
      if crc32 p ≠ c % 2 ^ 32 then .throw .invalidArgument else cborDecode p >>= readPayload) := rfl
  rw [e]
  unfold cborDecode
  cases hp : parse b with
  | none =>
    refine (exact_throw .invalidArgument).congr ?_ ?_
    · simp only [false_iff]
      rintro ⟨i, -, -, -, h, -⟩
      rw [begins_iff.mp h] at hp; cases hp
    · simp only [false_iff]
      rintro ⟨i, h, -⟩
      rw [begins_iff.mp h] at hp; cases hp
  | some i =>
    have hb := begins_iff.mpr hp
    simp only [Out.ok_bind]
    by_cases he : ∃ p c, Envelope i p c
    · obtain ⟨p, c, hE⟩ := he
      have hE' := hE
      obtain ⟨x, y, more, h1, h2, h3⟩ := hE'
      simp only [asArray_iff.mpr h1, asBstr_iff.mpr h2, asUint_iff.mpr h3, deref, Out.ok_bind, Cbor.get,
        List.getElem?_cons_zero, List.getElem?_cons_succ]
      have good : AddressGood crc32 b ↔ crc32 p = c % 2 ^ 32 ∧ ∃ j, parse p = some j ∧ PayloadGood j := by
        constructor
        · rintro ⟨i', p', c', j, g1, g2, g3, g4, g5⟩
          rw [← begins_unique hb g1] at g2
          obtain ⟨rfl, rfl⟩ := envelope_unique hE g2
          exact ⟨g3, j, begins_iff.mp g4, g5⟩
        · rintro ⟨g3, j, g4, g5⟩
          exact ⟨i, p, c, j, hb, hE, g3, begins_iff.mpr g4, g5⟩
      have fatal : AddressFatal crc32 b ↔ crc32 p = c % 2 ^ 32 ∧ ∃ j, parse p = some j ∧ PayloadFatal j := by
        constructor
        · rintro ⟨i', g1, h⟩
          rw [← begins_unique hb g1] at h
          rcases h with h | ⟨p', c', j, g2, g3, g4, g5⟩
          · exact absurd ⟨p, c, hE⟩ h
          · obtain ⟨rfl, rfl⟩ := envelope_unique hE g2
            exact ⟨g3, j, begins_iff.mp g4, g5⟩
        · rintro ⟨g3, j, g4, g5⟩
          exact ⟨i, hb, .inr ⟨p, c, j, hE, g3, begins_iff.mpr g4, g5⟩⟩
      refine Exact.congr (g := crc32 p = c % 2 ^ 32 ∧ ∃ j, parse p = some j ∧ PayloadGood j)
        (f := crc32 p = c % 2 ^ 32 ∧ ∃ j, parse p = some j ∧ PayloadFatal j) ?_ good.symm fatal.symm
      by_cases hc : crc32 p = c % 2 ^ 32
      · rw [if_neg (by simpa using hc)]
        cases hq : parse p with
        | none => exact (exact_throw .invalidArgument).congr (by simp) (by simp)
        | some j => exact (exact_payload j).congr (by simp [hc]) (by simp [hc])
      · rw [if_pos hc]
        exact (exact_throw .invalidArgument).congr ⟨False.elim, fun h => hc h.1⟩ ⟨False.elim, fun h => hc h.1⟩
    · have eu : (deref (asArray i) >>= fun arr =>
          (get arr 0 >>= fun i => deref (asBstr i)) >>= fun p => (get arr 1 >>= fun i => deref (asUint i)) >>= fun c =>
          if crc32 p ≠ c % 2 ^ 32 then .throw .invalidArgument else cborDecode p >>= readPayload) = .ub := by
        cases h1 : asArray i with
        | none => rfl
        | some l =>
          match l with
          | [] => rfl
          | [x] => simp only [deref, Out.ok_bind, Cbor.get, List.getElem?_cons_zero]; cases asBstr x <;> rfl
          | x :: y :: more =>
            simp only [deref, Out.ok_bind, Cbor.get, List.getElem?_cons_zero, List.getElem?_cons_succ]
            cases h2 : asBstr x with
            | none => rfl
            | some p =>
              cases h3 : asUint y with
              | none => rfl
              | some c => exact absurd ⟨p, c, x, y, more, asArray_iff.mp h1, asBstr_iff.mp h2, asUint_iff.mp h3⟩ he
      unfold cborDecode at eu
      rw [eu]
      refine exact_ub.congr ?_ ?_
      · simp only [false_iff]
        rintro ⟨i', p, c, j, g1, g2, -⟩
        rw [← begins_unique hb g1] at g2
        exact he ⟨p, c, g2⟩
      · simp only [true_iff]
        exact ⟨i, hb, .inl he⟩

/-- **C111 (partial).**  What `fromCBOR` does with any bytes whatever: it returns an address exactly for the good ones, leaves
defined behaviour exactly for the fatal ones, and throws `std::invalid_argument` for all others.
Missing: that no bytes are fatal; false of the code (`C111_counterexample`). -/
theorem C111_exact_partial (b : Bytes) :
    ((∃ a, fromCBOR b = .ok a) ↔ AddressGood crc32 b) ∧ (fromCBOR b = .ub ↔ AddressFatal crc32 b) ∧
    (¬ AddressGood crc32 b → ¬ AddressFatal crc32 b → fromCBOR b = .throw .invalidArgument) := by
  obtain ⟨h1, h2⟩ := exact_body b
  unfold fromCBOR
  cases h : fromCBORBody b with
  | ok a => rw [h] at h1 h2; exact ⟨h1, h2, fun hg => absurd (h1.mp ⟨a, rfl⟩) hg⟩
  | throw e => rw [h] at h1 h2; exact ⟨⟨by simp, fun g => by simpa using h1.mpr g⟩, ⟨by simp, fun g => by simpa using h2.mpr g⟩, fun _ _ => rfl⟩
  | ub => rw [h] at h1 h2; exact ⟨h1, h2, fun _ hf => absurd (h2.mp rfl) hf⟩

/-- **C111** for texts: a Base58 text is undefined behaviour exactly if its bytes are fatal. -/
theorem C111_text (s b : Bytes) (h : Base58.decode s = .ok b) :
    ((∃ a, fromBase58 s = .ok a) ↔ AddressGood crc32 b) ∧ (fromBase58 s = .ub ↔ AddressFatal crc32 b) ∧
    (¬ AddressGood crc32 b → ¬ AddressFatal crc32 b → fromBase58 s = .throw .invalidArgument) := by
  have e : fromBase58 s = fromCBOR b := by rw [fromBase58, h]; rfl
  rw [e]; exact C111_exact_partial b

/-- **C111 is false of the code**: a text of one character, and the bytes of an address with a correct checksum but a root
of 29 bytes, make the reader follow a null pointer or write beyond the root. -/
theorem C111_counterexample : fromBase58 (ascii "2") = .ub ∧
    (∃ payload, payload = enc (.array [.bstr (List.replicate 29 0), .map [], .uint 0]) ∧
      fromCBOR (wrap payload (crc32 payload)) = .ub) := by
  refine ⟨by decide +kernel, _, rfl, by decide +kernel⟩

/-- Every address the library writes is good. -/
theorem C111_written_good (a : Addr) (h : Valid a) (ht : a.type ≠ .redeem) : AddressGood crc32 (toCBOR a) :=
  (C111_exact_partial _).1.mp ⟨a, (C14_roundtrip_partial a h ht).1⟩

example : Valid ⟨List.replicate 28 5, [1, 2, 3], 764824073, .pubkey⟩ := by
  refine ⟨by decide, by decide, by decide⟩

end Cardano.Byron
