import Verif.Props.UtxoJson
import Verif.Props.GenesisFaults

/-! # C82: exactly which documents are undefined behaviour -/

namespace Cardano.TxBuilder

open Genesis

/-- An object without the key. -/
def Lacks (j : J) (k : String) : Prop := ∃ l, j = .obj l ∧ j.get? k = none

/-- The text is the hexadecimal form, in either case, of these bytes. -/
def HexText (s : String) (b : Bytes) : Prop := (utf8 s).map toLower = Hex.encode b ∧ ∀ c ∈ utf8 s, Hex.specHexDigit c

theorem index_ub {j : J} {k : String} : jIndex j k = .ub ↔ Lacks j k := by
  unfold jIndex Lacks
  cases j with
  | obj l => cases h : l.lookup k <;> simp [J.get?, h]
  | _ => simp

theorem index_bind_ub {β} {j : J} {k : String} {f : J → Out β} :
    (jIndex j k >>= f) = .ub ↔ Lacks j k ∨ ∃ v, j.get? k = some v ∧ f v = .ub := by
  rw [← index_ub]
  rcases h : jIndex j k with v | e | _
  · have := get_of_index h
    simp [this]
  · have : ∀ v, j.get? k ≠ some v := fun v hv => by rw [index_get hv] at h; cases h
    simp [this]
  · simp

theorem hex_bind_ub {β} {s : String} {f : Bytes → Out β} : (Hex.decode (utf8 s) >>= f) = .ub ↔ ∃ b, HexText s b ∧ f b = .ub := by
  rcases h : Hex.decode (utf8 s) with b | e | _
  · have hb : HexText s b := ⟨((Hex.C02_hex_decode_exact _).2.2 b h).symm, ((Hex.C02_hex_decode_exact _).1.mp ⟨b, h⟩).2⟩
    simp only [Out.ok_bind]
    refine ⟨fun hf => ⟨b, hb, hf⟩, fun ⟨b', h1, h2⟩ => ?_⟩
    have := hex_of_text h1.1 h1.2
    rw [h] at this
    rwa [Out.ok.inj this]
  · have : ∀ b, ¬ HexText s b := fun b hb => by rw [hex_of_text hb.1 hb.2] at h; cases h
    simp [this]
  · exact absurd h (by
      rcases (Hex.C02_hex_decode_exact (utf8 s)) with ⟨h1, h2, -⟩
      intro hu
      by_cases hd : (∃ b, Hex.decode (utf8 s) = .ok b)
      · obtain ⟨b, hb⟩ := hd; rw [hb] at hu; cases hu
      · rw [h2 hd] at hu; cases hu)

theorem str_bind_ub {β} {t : J} {f : String → Out β} : (getStr t >>= f) = .ub ↔ ∃ s, t = .str s ∧ f s = .ub := by
  cases t <;> simp [getStr]

/-- **C82** Exactly which documents are undefined behaviour: members are looked up in the order transaction, id, index, value, ada,
lovelace, and the first thing that is wrong is (Spec/GenesisFaults) a member missing from an object or a number that does not fit, or nothing is wrong but
the id is shorter than 32 bytes.  All other documents that are not accepted are refused with an exception. -/
theorem C82_undefined_iff (j : J) : UTxO.fromJSON j = .ub ↔
    Lacks j "transaction" ∨ ∃ t, j.get? "transaction" = some t ∧ (Lacks t "id" ∨
    ∃ x, t.get? "id" = some x ∧ ∃ s, x = .str s ∧ ∃ b, HexText s b ∧ (Lacks j "index" ∨
    ∃ i, j.get? "index" = some i ∧ (Fatal (.uint 64) i ∨ Readable (.uint 64) i ∧ (Lacks j "value" ∨
    ∃ v, j.get? "value" = some v ∧ (Lacks v "ada" ∨
    ∃ a, v.get? "ada" = some a ∧ (Lacks a "lovelace" ∨
    ∃ l, a.get? "lovelace" = some l ∧ (Fatal (.uint 64) l ∨ Readable (.uint 64) l ∧ b.length < 32))))))) := by
  have hu : ∀ {β} {j : J} {f : Nat → Out β} {p : Prop}, (∀ n, f n = .ub ↔ p) → ((getU64 j >>= f) = .ub ↔ Fatal (.uint 64) j ∨ Readable (.uint 64) j ∧ p) := by
    intro β j f p hf
    rw [← Exact.ub (fr := getU64), ← Exact.ok (fr := getU64)]
    cases getU64 j with
    | ok n => simp [hf]
    | throw e => simp
    | ub => simp
  unfold UTxO.fromJSON
  simp only [index_bind_ub, str_bind_ub, hex_bind_ub]
  refine or_congr Iff.rfl (exists_congr fun t => and_congr Iff.rfl (or_congr Iff.rfl (exists_congr fun x => and_congr Iff.rfl
    (exists_congr fun s => and_congr Iff.rfl (exists_congr fun b => and_congr Iff.rfl (or_congr Iff.rfl (exists_congr fun i =>
    and_congr Iff.rfl ?_)))))))
  refine hu fun n => ?_
  simp only [index_bind_ub]
  refine or_congr Iff.rfl (exists_congr fun v => and_congr Iff.rfl (or_congr Iff.rfl (exists_congr fun a => and_congr Iff.rfl
    (or_congr Iff.rfl (exists_congr fun l => and_congr Iff.rfl ?_)))))
  refine hu fun m => ?_
  unfold Pool.makeByteArray
  split <;> simp [*]

example : Lacks (.obj []) "transaction" := ⟨[], rfl, rfl⟩


end Cardano.TxBuilder
