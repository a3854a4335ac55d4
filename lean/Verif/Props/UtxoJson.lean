import Verif.Model.UtxoJson
import Verif.Props.Hex

/-! # C82: unspent outputs read from Ogmios JSON -/

namespace Cardano.TxBuilder

open Genesis

/-- An Ogmios unspent output: `{"transaction":{"id":…},"index":…,"value":{"ada":{"lovelace":…}}}`,
with further members allowed; the id is hexadecimal text of either case. -/
def IsOgmiosUTxO (j : J) (id : Bytes) (index value : Nat) : Prop :=
  ∃ (t v a : J) (s : String), j.get? "transaction" = some t ∧ t.get? "id" = some (.str s) ∧
    (utf8 s).map toLower = Hex.encode id ∧ (∀ c ∈ utf8 s, Hex.specHexDigit c) ∧
    j.get? "index" = some (.uint index) ∧ j.get? "value" = some v ∧ v.get? "ada" = some a ∧
    a.get? "lovelace" = some (.uint value)

theorem index_get {j : J} {k : String} {v : J} (h : j.get? k = some v) : jIndex j k = .ok v := by
  cases j <;> simp only [J.get?, reduceCtorEq] at h
  simp only [jIndex, h]

theorem get_of_index {j : J} {k : String} {v : J} (h : jIndex j k = .ok v) : j.get? k = some v := by
  cases j <;> simp only [jIndex, reduceCtorEq] at h
  simp only [J.get?]
  split at h
  · rename_i e; rw [e, Out.ok.inj h]
  · cases h

theorem hex_of_text {s id : Bytes} (h : s.map toLower = Hex.encode id) (hd : ∀ c ∈ s, Hex.specHexDigit c) :
    Hex.decode s = .ok id := by
  have hl : s.length = 2 * id.length := by
    rw [← (Hex.C01_hex_roundtrip id).2.1, ← h, List.length_map]
  obtain ⟨h1, -, h3⟩ := Hex.C02_hex_decode_exact s
  obtain ⟨b, hb⟩ := h1.mpr ⟨by omega, hd⟩
  have e := h3 b hb
  rw [h] at e
  have e1 := (Hex.C01_hex_roundtrip b).1
  rw [e, (Hex.C01_hex_roundtrip id).1] at e1
  rw [hb, Out.ok.inj e1]

/-- **C82** A well-formed document is read to exactly its id, index and amount. -/
theorem C82_reads (j : J) (id : Bytes) (index value : Nat) (h : IsOgmiosUTxO j id index value)
    (hid : id.length = 32) (hi : index < 2 ^ 64) (hv : value < 2 ^ 64) :
    UTxO.fromJSON j = .ok ⟨id, index, value⟩ := by
  obtain ⟨t, v, a, s, h1, h2, h3, h4, h5, h6, h7, h8⟩ := h
  unfold UTxO.fromJSON
  simp only [index_get h1, index_get h2, index_get h5, index_get h6, index_get h7, index_get h8, Out.ok_bind, getStr,
    hex_of_text h3 h4, getU64, Pool.makeByteArray, hid, Nat.lt_irrefl, if_false, Nat.mod_eq_of_lt hi, Nat.mod_eq_of_lt hv,
    Out.pure_eq]
  rw [← hid, List.take_length]

/-- **C82** Whatever document is accepted, the id is the first 32 bytes of its hexadecimal text,
and index and amount are its numbers converted to 64 bits.
Missing: that every document not of the format throws, which is false of the code (C82_undefined,
C82_long_id_cut). -/
theorem C82_sound_partial (j : J) (u : UTxO) (h : UTxO.fromJSON j = .ok u) :
    ∃ (t v a i l : J) (s : String) (b : Bytes), j.get? "transaction" = some t ∧ t.get? "id" = some (.str s) ∧
      (utf8 s).map toLower = Hex.encode b ∧ 32 ≤ b.length ∧ u.id = b.take 32 ∧
      j.get? "index" = some i ∧ getU64 i = .ok u.index ∧
      j.get? "value" = some v ∧ v.get? "ada" = some a ∧ a.get? "lovelace" = some l ∧ getU64 l = .ok u.value := by
  unfold UTxO.fromJSON at h
  simp only [Out.bind_eq_ok] at h
  obtain ⟨t, h1, t2, h2, s, h3, id, h4, i, h5, index, h6, v, h7, a, h8, l, h9, value, h10, id', h11, h12⟩ := h
  have hs : t2 = .str s := by
    cases t2 <;> simp only [getStr, reduceCtorEq] at h3
    rw [Out.ok.inj h3]
  subst hs
  have h12 := Out.ok.inj h12
  subst h12
  unfold Pool.makeByteArray at h11
  split at h11
  · cases h11
  · rename_i hl
    have h11 := Out.ok.inj h11
    exact ⟨t, v, a, i, l, s, id, get_of_index h1, get_of_index h2, ((Hex.C02_hex_decode_exact _).2.2 id h4).symm,
      by omega, h11.symm, get_of_index h5, h6, get_of_index h7, get_of_index h8, get_of_index h9, h10⟩

/-- **C82** Exactly which documents are accepted, and what is made of them. -/
theorem C82_accepts_iff (j : J) (u : UTxO) : UTxO.fromJSON j = .ok u ↔
    ∃ (t v a i l : J) (s : String) (b : Bytes), j.get? "transaction" = some t ∧ t.get? "id" = some (.str s) ∧
      (utf8 s).map toLower = Hex.encode b ∧ (∀ c ∈ utf8 s, Hex.specHexDigit c) ∧ 32 ≤ b.length ∧ u.id = b.take 32 ∧
      j.get? "index" = some i ∧ getU64 i = .ok u.index ∧
      j.get? "value" = some v ∧ v.get? "ada" = some a ∧ a.get? "lovelace" = some l ∧ getU64 l = .ok u.value := by
  constructor
  · intro h
    obtain ⟨t, v, a, i, l, s, b, h1, h2, h3, h4, h5, h6, h7, h8, h9, h10, h11⟩ := C82_sound_partial j u h
    refine ⟨t, v, a, i, l, s, b, h1, h2, h3, ?_, h4, h5, h6, h7, h8, h9, h10, h11⟩
    unfold UTxO.fromJSON at h
    simp only [index_get h1, index_get h2, Out.ok_bind, getStr, Out.bind_eq_ok] at h
    obtain ⟨id, hid, -⟩ := h
    exact ((Hex.C02_hex_decode_exact (utf8 s)).1.mp ⟨id, hid⟩).2
  · rintro ⟨t, v, a, i, l, s, b, h1, h2, h3, hd, h4, h5, h6, h7, h8, h9, h10, h11⟩
    unfold UTxO.fromJSON
    simp only [index_get h1, index_get h2, index_get h6, index_get h8, index_get h9, index_get h10, Out.ok_bind, getStr,
      hex_of_text h3 hd, h7, h11, Pool.makeByteArray, Nat.not_lt.mpr h4, if_false, ← h5, Out.pure_eq]

/-- **C82** Nothing is guaranteed of other documents: a missing member, or an id shorter than 32
bytes, is undefined behaviour. -/
theorem C82_undefined (j : J) :
    (∀ l, j = .obj l → j.get? "transaction" = none → UTxO.fromJSON j = .ub) ∧
    (∀ id index value, IsOgmiosUTxO j id index value → id.length < 32 → UTxO.fromJSON j = .ub) := by
  constructor
  · rintro l rfl h
    simp only [J.get?] at h
    simp only [UTxO.fromJSON, jIndex, h, Out.ub_bind]
  · intro id index value h hid
    obtain ⟨t, v, a, s, h1, h2, h3, h4, h5, h6, h7, h8⟩ := h
    unfold UTxO.fromJSON
    simp only [index_get h1, index_get h2, index_get h5, index_get h6, index_get h7, index_get h8, Out.ok_bind, getStr,
      hex_of_text h3 h4, getU64, Pool.makeByteArray, hid, if_true, Out.ub_bind]

/-- **C82** Ids longer than 32 bytes are cut without complaint. -/
theorem C82_long_id_cut (j : J) (id : Bytes) (index value : Nat) (h : IsOgmiosUTxO j id index value)
    (hid : 32 ≤ id.length) (hi : index < 2 ^ 64) (hv : value < 2 ^ 64) :
    UTxO.fromJSON j = .ok ⟨id.take 32, index, value⟩ := by
  obtain ⟨t, v, a, s, h1, h2, h3, h4, h5, h6, h7, h8⟩ := h
  unfold UTxO.fromJSON
  simp only [index_get h1, index_get h2, index_get h5, index_get h6, index_get h7, index_get h8, Out.ok_bind, getStr,
    hex_of_text h3 h4, getU64, Pool.makeByteArray, Nat.not_lt.mpr hid, if_false, Nat.mod_eq_of_lt hi, Nat.mod_eq_of_lt hv,
    Out.pure_eq]

/-- **C82** `==` and `<` agree with each other and look at transaction id and index only, as a
`std::set` of unspent outputs needs: exactly one of `a < b`, `a == b`, `b < a` holds. -/
theorem C82_order (a b : UTxO) :
    (a.eq b = true ↔ a.id = b.id ∧ a.index = b.index) ∧
    (a.lt b = true ∧ a.eq b = false ∧ b.lt a = false ∨ a.lt b = false ∧ a.eq b = true ∧ b.lt a = false ∨
      a.lt b = false ∧ a.eq b = false ∧ b.lt a = true) := by
  constructor
  · simp [UTxO.eq]
  · unfold UTxO.lt UTxO.eq
    have irr : ∀ x : Bytes, ¬ x < x := fun x => Std.lt_irrefl
    have asy : ∀ x y : Bytes, x < y → ¬ y < x := fun x y h1 h2 => irr x (Std.lt_trans h1 h2)
    rcases Std.lt_trichotomy a.id b.id with h | h | h
    · left
      have h1 := asy _ _ h
      have h2 : a.id ≠ b.id := fun e => by rw [e] at h; exact irr _ h
      simp [h, h1, h2, h2.symm]
    · rw [h]
      have h1 := irr b.id
      rcases Nat.lt_trichotomy a.index b.index with g | g | g
      · left; simp [h1, g, Nat.ne_of_lt g, Nat.le_of_lt g]
      · right; left; simp [h1, g]
      · right; right; simp [h1, g, (Nat.ne_of_lt g).symm, Nat.le_of_lt g]
    · right; right
      have h1 := asy _ _ h
      have h2 : a.id ≠ b.id := fun e => by rw [e] at h; exact irr _ h
      simp [h, h1, h2, h2.symm]

/-- **C82** `<` is transitive, so that together with `C82_order` it is a strict total order up to
`==`. -/
theorem C82_order_trans (a b c : UTxO) (h1 : a.lt b = true) (h2 : b.lt c = true) : a.lt c = true := by
  unfold UTxO.lt at *
  simp only [Bool.or_eq_true, Bool.and_eq_true, decide_eq_true_eq, beq_iff_eq] at *
  rcases h1 with h1 | ⟨e1, h1⟩ <;> rcases h2 with h2 | ⟨e2, h2⟩
  · exact Or.inl (Std.lt_trans h1 h2)
  · exact Or.inl (e2 ▸ h1)
  · exact Or.inl (e1 ▸ h2)
  · exact Or.inr ⟨e1.trans e2, Nat.lt_trans h1 h2⟩

/-- **C82** Protocol versions are valid exactly in the era's range. -/
theorem C82_versions (major : Nat) :
    (shelleyVersionValid major = true ↔ 1 ≤ major ∧ major ≤ 3) ∧ (maryVersionValid major = true ↔ 1 ≤ major ∧ major ≤ 5) := by
  simp [shelleyVersionValid, maryVersionValid, Nat.succ_le_iff]

/-- A document that meets the hypotheses. -/
example : IsOgmiosUTxO (.obj [("index", .uint 3), ("transaction", .obj [("id", .str "fFf0fFf0fFf0fFf0fFf0fFf0fFf0fFf0fFf0fFf0fFf0fFf0fFf0fFf0fFf0fFf0")]),
    ("value", .obj [("ada", .obj [("lovelace", .uint 5)])])]) (List.replicate 16 [0xFF, 0xF0]).flatten 3 5 :=
  ⟨_, _, _, "fFf0fFf0fFf0fFf0fFf0fFf0fFf0fFf0fFf0fFf0fFf0fFf0fFf0fFf0fFf0fFf0", rfl, rfl, by decide +kernel, by decide +kernel, rfl, rfl, rfl, rfl⟩

end Cardano.TxBuilder
