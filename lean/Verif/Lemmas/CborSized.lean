import Verif.Lemmas.Cbor

/-! # What the parser can produce

Every item `cppbor::parse` returns has 64-bit arguments, containers no longer than the input,
and maps with as many values as keys. -/

namespace Cardano.Cbor

/-- 64-bit arguments, strings and containers of at most `L` elements, even maps. -/
inductive Sized (L : Nat) : Item → Prop
  | uint {n} : n < 2 ^ 64 → Sized L (.uint n)
  | nint {n} : n < 2 ^ 63 → Sized L (.nint n)
  | bstr {b : Bytes} : b.length ≤ L → Sized L (.bstr b)
  | tstr {b : Bytes} : b.length ≤ L → Sized L (.tstr b)
  | array {l : List Item} : l.length ≤ L → (∀ i ∈ l, Sized L i) → Sized L (.array l)
  | map {l : List Item} : l.length ≤ L → l.length % 2 = 0 → (∀ i ∈ l, Sized L i) → Sized L (.map l)
  | tag {n i} : n < 2 ^ 64 → Sized L i → Sized L (.tag n i)
  | bool {b} : Sized L (.bool b)
  | null : Sized L .null

theorem Sized.wf {L : Nat} (hL : L < 2 ^ 64) {i : Item} (h : Sized L i) : WF i := by
  induction h with
  | uint h => exact WF.uint h
  | nint h => exact WF.nint h
  | bstr h => exact WF.bstr (by omega)
  | tstr h => exact WF.tstr (by omega)
  | array h _ ih => exact WF.array (by omega) ih
  | map h h2 _ ih => exact WF.map (by omega) h2 ih
  | tag h _ ih => exact WF.tag h ih
  | bool => exact WF.bool
  | null => exact WF.null

theorem beNat_lt64 (a : Bytes) (h : a.length ≤ 8) : beNat a < 2 ^ 64 := by
  have := beNat_lt a
  calc beNat a < 256 ^ a.length := this
    _ ≤ 256 ^ 8 := Nat.pow_le_pow_right (by omega) h
    _ = 2 ^ 64 := by decide

theorem takeN_eq {n : Nat} {b x r : Bytes} (h : takeN n b = some (x, r)) :
    x.length = n ∧ x ++ r = b := by
  unfold takeN at h
  split at h
  · next hn =>
    simp only [Option.some.injEq, Prod.mk.injEq] at h
    obtain ⟨rfl, rfl⟩ := h
    exact ⟨by simp [hn], List.take_append_drop n b⟩
  · simp at h

theorem parseHeader_rest {b : Bytes} {m i n : Nat} {r : Bytes} (h : parseHeader b = some (m, i, n, r)) :
    r.length < b.length ∧ n < 2 ^ 64 ∧ m < 8 := by
  cases b with
  | nil => simp [parseHeader] at h
  | cons c rest =>
    simp only [parseHeader] at h
    have hc : c.toNat < 256 := c.toNat_lt
    split at h
    · next hi =>
      simp only [Option.some.injEq, Prod.mk.injEq] at h
      obtain ⟨rfl, rfl, rfl, rfl⟩ := h
      exact ⟨by simp, by omega, by omega⟩
    · split at h
      · next h1 h2 =>
        simp only [Option.map_eq_some_iff, Prod.exists, Prod.mk.injEq] at h
        obtain ⟨a, r', hk, rfl, rfl, rfl, rfl⟩ := h
        obtain ⟨hl, he⟩ := takeN_eq hk
        have h8 : a.length ≤ 8 := by
          rw [hl]
          calc 2 ^ (c.toNat % 32 - 24) ≤ 2 ^ 3 := Nat.pow_le_pow_right (by omega) (by omega)
            _ = 8 := by decide
        refine ⟨?_, beNat_lt64 a h8, by omega⟩
        have := congrArg List.length he
        simp only [List.length_append] at this
        simp only [List.length_cons]; omega
      · simp at h

theorem parse_sized_aux (L : Nat) : ∀ f : Nat,
    (∀ b i r, b.length ≤ L → parseF f b = some (i, r) → Sized L i ∧ r.length < b.length) ∧
    (∀ n b l r, b.length ≤ L → parseList f n b = some (l, r) →
      l.length = n ∧ l.length + r.length ≤ b.length ∧ ∀ i ∈ l, Sized L i) := by
  intro f
  induction f with
  | zero =>
    refine ⟨fun b i r _ h => by simp [parseF] at h, fun n b l r hb h => ?_⟩
    cases n with
    | zero =>
      simp only [parseList, Option.some.injEq, Prod.mk.injEq] at h
      obtain ⟨rfl, rfl⟩ := h; simp
    | succ n => simp [parseList] at h
  | succ f ih =>
    refine ⟨fun b i r hb h => ?_, fun n b l r hb h => ?_⟩
    · simp only [parseF] at h
      split at h
      · simp at h
      · next major info n rest hh =>
        obtain ⟨h1, h2, h3⟩ := parseHeader_rest hh
        have hr : rest.length ≤ L := by omega
        split at h
        · simp only [Option.some.injEq, Prod.mk.injEq] at h
          obtain ⟨rfl, rfl⟩ := h
          exact ⟨Sized.uint h2, h1⟩
        · split at h
          · next hn =>
            simp only [Option.some.injEq, Prod.mk.injEq] at h
            obtain ⟨rfl, rfl⟩ := h
            exact ⟨Sized.nint hn, h1⟩
          · simp at h
        · simp only [Option.map_eq_some_iff, Prod.exists, Prod.mk.injEq] at h
          obtain ⟨a, r', hk, rfl, rfl⟩ := h
          have := congrArg List.length (takeN_eq hk).2
          simp only [List.length_append] at this
          exact ⟨Sized.bstr (by omega), by omega⟩
        · simp only [Option.map_eq_some_iff, Prod.exists, Prod.mk.injEq] at h
          obtain ⟨a, r', hk, rfl, rfl⟩ := h
          have := congrArg List.length (takeN_eq hk).2
          simp only [List.length_append] at this
          exact ⟨Sized.tstr (by omega), by omega⟩
        · simp only [Option.map_eq_some_iff, Prod.exists, Prod.mk.injEq] at h
          obtain ⟨a, r', hk, rfl, rfl⟩ := h
          have := ih.2 _ _ _ _ hr hk
          exact ⟨Sized.array (by omega) this.2.2, by omega⟩
        · simp only [Option.map_eq_some_iff, Prod.exists, Prod.mk.injEq] at h
          obtain ⟨a, r', hk, rfl, rfl⟩ := h
          have := ih.2 _ _ _ _ hr hk
          exact ⟨Sized.map (by omega) (by omega) this.2.2, by omega⟩
        · simp only [Option.map_eq_some_iff, Prod.exists, Prod.mk.injEq] at h
          obtain ⟨a, r', hk, rfl, rfl⟩ := h
          have := ih.1 _ _ _ hr hk
          exact ⟨Sized.tag h2 this.1, by omega⟩
        · split at h
          · simp only [Option.some.injEq, Prod.mk.injEq] at h
            obtain ⟨rfl, rfl⟩ := h
            exact ⟨Sized.bool, h1⟩
          · split at h
            · simp only [Option.some.injEq, Prod.mk.injEq] at h
              obtain ⟨rfl, rfl⟩ := h
              exact ⟨Sized.bool, h1⟩
            · split at h
              · simp only [Option.some.injEq, Prod.mk.injEq] at h
                obtain ⟨rfl, rfl⟩ := h
                exact ⟨Sized.null, h1⟩
              · simp at h
    · cases n with
      | zero =>
        simp only [parseList, Option.some.injEq, Prod.mk.injEq] at h
        obtain ⟨rfl, rfl⟩ := h; simp
      | succ n =>
        simp only [parseList] at h
        split at h
        · simp at h
        · next i r' hk =>
          simp only [Option.map_eq_some_iff, Prod.exists, Prod.mk.injEq] at h
          obtain ⟨l', r'', hl, rfl, rfl⟩ := h
          have a := ih.1 _ _ _ hb hk
          have c := ih.2 _ _ _ _ (by omega) hl
          refine ⟨by simp [c.1], by simp only [List.length_cons]; omega, ?_⟩
          intro j hj
          rcases List.mem_cons.mp hj with rfl | hj
          · exact a.1
          · exact c.2.2 j hj

theorem parse_sized {b : Bytes} {i : Item} (h : parse b = some i) : Sized b.length i := by
  unfold parse at h
  simp only [Option.map_eq_some_iff, Prod.exists, exists_and_right, exists_eq_right] at h
  obtain ⟨r, h⟩ := h
  exact ((parse_sized_aux b.length _).1 _ _ _ (Nat.le_refl _) h).1

/-! ## Accessors -/

theorem Sized.untag {L : Nat} {i : Item} (h : Sized L i) : Sized L (untag i) := by
  induction h with
  | tag _ _ ih => simpa [Cbor.untag] using ih
  | uint h => exact Sized.uint h
  | nint h => exact Sized.nint h
  | bstr h => exact Sized.bstr h
  | tstr h => exact Sized.tstr h
  | array h h2 _ => exact Sized.array h h2
  | map h h2 h3 _ => exact Sized.map h h2 h3
  | bool => exact Sized.bool
  | null => exact Sized.null

theorem Sized.asUint {L n : Nat} {i : Item} (h : Sized L i) (e : asUint i = some n) : n < 2 ^ 64 := by
  have hu := h.untag
  unfold Cbor.asUint at e
  split at e
  · next m he => rw [he] at hu; cases hu; simp at e; omega
  · simp at e

theorem Sized.asBstr {L : Nat} {b : Bytes} {i : Item} (h : Sized L i) (e : asBstr i = some b) : b.length ≤ L := by
  have hu := h.untag
  unfold Cbor.asBstr at e
  split at e
  · next m he => rw [he] at hu; cases hu; simp at e; subst e; assumption
  · simp at e

theorem Sized.asTstr {L : Nat} {b : Bytes} {i : Item} (h : Sized L i) (e : asTstr i = some b) : b.length ≤ L := by
  have hu := h.untag
  unfold Cbor.asTstr at e
  split at e
  · next m he => rw [he] at hu; cases hu; simp at e; subst e; assumption
  · simp at e

theorem Sized.asArray {L : Nat} {l : List Item} {i : Item} (h : Sized L i) (e : asArray i = some l) :
    l.length ≤ L ∧ ∀ j ∈ l, Sized L j := by
  have hu := h.untag
  unfold Cbor.asArray at e
  split at e
  · next m he => rw [he] at hu; cases hu; simp at e; subst e; exact ⟨by assumption, by assumption⟩
  · simp at e

theorem Sized.asMap {L : Nat} {l : List Item} {i : Item} (h : Sized L i) (e : asMap i = some l) :
    l.length ≤ L ∧ ∀ j ∈ l, Sized L j := by
  have hu := h.untag
  unfold Cbor.asMap at e
  split at e
  · next m he => rw [he] at hu; cases hu; simp at e; subst e; exact ⟨by assumption, by assumption⟩
  · simp at e

theorem lookup_mem {k : Nat} : ∀ {l : List Item} {v : Item}, lookup k l = some v → v ∈ l
  | [], v, h => by simp [lookup] at h
  | [_], v, h => by simp [lookup] at h
  | a :: w :: rest, v, h => by
    unfold lookup at h
    split at h
    · split at h
      · simp at h; subst h; simp
      · have := lookup_mem h; simp [this]
    · have := lookup_mem h; simp [this]

end Cardano.Cbor
