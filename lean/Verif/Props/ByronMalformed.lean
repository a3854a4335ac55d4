import Verif.Props.Byron
import Verif.Props.CborRfc

/-! # C15: bytes that are not CBOR are refused as Byron addresses -/

namespace Cardano.Byron

open Cardano Cardano.Cbor Cardano.Spec.Rfc8949

/-- No beginning of the bytes is a CBOR item of RFC 8949. -/
def NotCbor (b : Bytes) : Prop := ∀ i p rest, b = p ++ rest → ¬ Encodes i p

theorem notCbor_parse {b : Bytes} : NotCbor b ↔ parse b = none := by
  constructor
  · intro h
    cases e : parse b with
    | none => rfl
    | some i =>
      obtain ⟨p, rest, h1, h2⟩ := (C47_parse_iff b i).mp e
      exact absurd h2 (h i p rest h1)
  · intro h i p rest h1 h2
    rw [(C47_parse_iff b i).mpr ⟨p, rest, h1, h2⟩] at h
    cases h

/-- **C15** (malformed bytes).  Bytes, and Base58 texts of bytes, that do not begin with a CBOR item are refused with an
exception; so is a wrapped payload that does not, whatever its checksum. -/
theorem C15_not_cbor (b : Bytes) :
    (NotCbor b → fromCBOR b = .throw .invalidArgument ∧
      ∀ s, Base58.decode s = .ok b → fromBase58 s = .throw .invalidArgument) ∧
    (∀ payload crc p rest, b = p ++ rest → Encodes (.array [.tag 24 (.bstr payload), .uint crc]) p → NotCbor payload →
      fromCBOR b = .throw .invalidArgument) := by
  refine ⟨fun h => ?_, ?_⟩
  · have e : fromCBOR b = .throw .invalidArgument := by
      unfold fromCBOR fromCBORBody cborDecode
      rw [notCbor_parse.mp h]; rfl
    refine ⟨e, fun s hs => ?_⟩
    rw [fromBase58, hs]; exact e
  · intro payload crc p rest hb hp hn
    have e : parse b = some (.array [.tag 24 (.bstr payload), .uint crc]) := (C47_parse_iff b _).mpr ⟨p, rest, hb, hp⟩
    unfold fromCBOR fromCBORBody cborDecode
    simp only [e, Out.ok_bind, asArray, untag, deref, Cbor.get, List.getElem?_cons_zero, List.getElem?_cons_succ, asBstr, asUint]
    split <;> try rfl
    rename_i r hr
    split at hr
    · simp_all
    · rw [notCbor_parse.mp hn] at *
      simp_all

/-- A lone break, an unfinished array and no bytes are not CBOR. -/
example : NotCbor [] ∧ NotCbor [0xFF] ∧ NotCbor [0x82, 0x01] ∧ ¬ NotCbor [0x82, 0x01, 0x02] := by
  simp only [notCbor_parse]; decide +kernel

end Cardano.Byron
