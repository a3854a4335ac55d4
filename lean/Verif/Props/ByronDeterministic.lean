import Verif.Props.Byron
import Verif.Props.Deterministic

/-! # C110: Byron addresses are written as deterministic CBOR -/

namespace Cardano.Byron

open Cardano Cardano.Cbor Cardano.Spec.Rfc8949 Cardano.Spec.SetOrder

/-- The attributes of an address: 1 is the encrypted path, 2 the protocol magic, each as CBOR inside a byte string. -/
def Attributes (a : Addr) (kvs : List (Nat × Bytes)) : Prop :=
  ∃ c m, Deterministic (.bstr a.ciphertext) c ∧ Deterministic (.uint a.magic) m ∧
    kvs = (if a.ciphertext = [] then [] else [(1, c)]) ++ (if a.magic = 0 then [] else [(2, m)])

/-- **C110.**  The bytes of an address are the deterministic encoding of the tagged payload and its checksum, and the payload
is the deterministic encoding of root, attributes and type.  (A redeem address is written with the type of a script
address, `C14_redeem_becomes_script`.) -/
theorem C110_byron (a : Addr) (h : Valid a) : ∃ payload crc kvs, crc < 2 ^ 32 ∧ Attributes a kvs ∧
    Deterministic (.array [.tag 24 (.bstr payload), .uint crc]) (toCBOR a) ∧
    Deterministic (.array [.bstr a.root, .map (kvs.flatMap fun p => [.uint p.1, .bstr p.2]),
      .uint (match a.type with | .pubkey => 0 | _ => 1)]) payload := by
  have hc := crc32_lt (payloadOf a)
  have e : (match a.type with | .pubkey => 0 | _ => 1) = typeToUint a.type := by cases a.type <;> rfl
  have hm : a.magic < 2 ^ 64 := by have := h.2.1; omega
  have hl : a.ciphertext.length < 2 ^ 64 := by have := h.2.2; omega
  let kvs : List (Nat × Bytes) := (if a.ciphertext = [] then [] else [(1, enc (.bstr a.ciphertext))]) ++
    (if a.magic = 0 then [] else [(2, enc (.uint a.magic))])
  have ek : attrMap a = kvs.flatMap fun p => [.uint p.1, .bstr p.2] := by
    have e1 : (a.ciphertext.length > 0) ↔ a.ciphertext ≠ [] := List.length_pos_iff
    unfold attrMap
    simp only [kvs, e1]
    by_cases h1 : a.ciphertext = [] <;> by_cases h2 : a.magic = 0 <;> simp [h1, h2]
  refine ⟨payloadOf a, crc32 (payloadOf a), kvs, hc, ⟨_, _, tidy_deterministic .bstr (.bstr hl),
    tidy_deterministic .uint (.uint hm), rfl⟩, ?_, ?_⟩
  · refine tidy_deterministic (.array ?_) (wf_wrap _ _ (payload_length a h) (by omega))
    intro i hi
    simp only [List.mem_cons, List.not_mem_nil, or_false] at hi
    rcases hi with rfl | rfl
    · exact .tag .bstr
    · exact .uint
  · rw [e, ← ek]
    refine tidy_deterministic (.array ?_) (wf_payload a h)
    intro i hi
    simp only [List.mem_cons, List.not_mem_nil, or_false] at hi
    rcases hi with rfl | rfl | rfl
    · exact .bstr
    · have := Tidy.map (kvs := kvs.map fun p => (Item.uint p.1, Item.bstr p.2)) (by
        intro p hp; obtain ⟨q, -, rfl⟩ := List.mem_map.mp hp; exact .uint) (by
        intro p hp; obtain ⟨q, -, rfl⟩ := List.mem_map.mp hp; exact .bstr) (by
        rw [List.map_map]
        have hb : Before (enc (.uint 1)) (enc (.uint 2)) := Cardano.Ledger.key_before (by omega) (by omega)
        simp only [kvs]
        by_cases h1 : a.ciphertext = [] <;> by_cases h2 : a.magic = 0 <;> simp [h1, h2, hb])
      rw [List.flatMap_map] at this
      rw [ek]
      exact this
    · exact .uint

/-- **C110** (consequence).  Two addresses of keys or scripts that are written as the same bytes are the same. -/
theorem C110_same_bytes (a a' : Addr) (h : Valid a) (h' : Valid a') (t : a.type ≠ .redeem) (t' : a'.type ≠ .redeem)
    (e : toCBOR a = toCBOR a') : a = a' := by
  have h1 := (C14_roundtrip_partial a h t).1
  rw [e, (C14_roundtrip_partial a' h' t').1] at h1
  exact (Out.ok.inj h1).symm

/-- A testnet address with a path. -/
example : Valid ⟨List.replicate 28 7, List.replicate 30 9, 1097911063, .pubkey⟩ ∧
    Attributes ⟨List.replicate 28 7, List.replicate 30 9, 1097911063, .pubkey⟩
      [(1, 0x58 :: 30 :: List.replicate 30 9), (2, [0x1A, 0x41, 0x70, 0xCB, 0x17])] := by
  refine ⟨by unfold Valid; decide, _, _, tidy_deterministic .bstr (.bstr (by decide)), tidy_deterministic .uint (.uint (by decide)), ?_⟩
  decide +kernel

end Cardano.Byron
