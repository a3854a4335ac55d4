import Verif.Props.ByronDeterministic

/-! # C112: which bytes of a Byron address are the ones the library writes -/

namespace Cardano.Byron

open Cardano Cardano.Cbor Cardano.Spec.Rfc8949

/-- Both layers are deterministic CBOR; the root has 28 bytes, the checksum 32 bits; nothing is left over, no attribute is
unknown, none that is there could be left out. -/
def Canonical (b : Bytes) : Prop :=
  ∃ root path magic type payload crc c m, root.length = 28 ∧ path.length < 2 ^ 60 ∧ magic < 2 ^ 32 ∧ type ≤ 1 ∧ crc < 2 ^ 32 ∧
    Deterministic (.array [.tag 24 (.bstr payload), .uint crc]) b ∧
    Deterministic (.array [.bstr root,
      .map ((if path = [] then [] else [.uint 1, .bstr c]) ++ (if magic = 0 then [] else [.uint 2, .bstr m])), .uint type]) payload ∧
    Deterministic (.bstr path) c ∧ Deterministic (.uint magic) m

/-- **C112 (partial).**  Bytes that are read as an address are the bytes of that address exactly if they are canonical.
Missing: that all bytes that are read are canonical; false of the code (`C112_counterexample`). -/
theorem C112_canonical_partial (b : Bytes) (a : Addr) (h : fromCBOR b = .ok a) (hv : Valid a) :
    toCBOR a = b ↔ Canonical b := by
  constructor
  · rintro rfl
    obtain ⟨payload, crc, kvs, h1, ⟨c, m, h2, h3, rfl⟩, h4, h5⟩ := C110_byron a hv
    have key : ∀ t, t ≤ 1 → Deterministic (.array [.bstr a.root, .map (((if a.ciphertext = [] then [] else [(1, c)]) ++
        if a.magic = 0 then [] else [(2, m)]).flatMap fun p : Nat × Bytes => [.uint p.1, .bstr p.2]), .uint t]) payload → Canonical (toCBOR a) := by
      intro t ht1 h5
      refine ⟨a.root, a.ciphertext, a.magic, t, payload, crc, c, m, hv.1, hv.2.2, hv.2.1, ht1, h1, h4, ?_, h2, h3⟩
      by_cases g1 : a.ciphertext = [] <;> by_cases g2 : a.magic = 0 <;> simpa [g1, g2] using h5
    exact key _ (by cases a.type <;> simp) h5
  · rintro ⟨root, path, magic, type, payload, crc, c, m, h1, h2, h3, h4, h5, h6, h7, h8, h9⟩
    obtain ⟨t, ht', htt⟩ : ∃ t : AddrType, t ≠ .redeem ∧ typeToUint t = type := by
      obtain rfl | rfl : type = 0 ∨ type = 1 := by omega
      · exact ⟨.pubkey, by decide, rfl⟩
      · exact ⟨.script, by decide, rfl⟩
    let a' : Addr := ⟨root, path, magic, t⟩
    have hv' : Valid a' := ⟨h1, h3, h2⟩
    have ep : payload = payloadOf a' := by
      rw [deterministic_enc h7, deterministic_enc h8, deterministic_enc h9, ← htt]
      unfold payloadOf attrMap
      have e1 : (path.length > 0) ↔ path ≠ [] := List.length_pos_iff
      simp only [a', e1]
      by_cases g1 : path = [] <;> by_cases g2 : magic = 0 <;> simp [g1, g2]
    have eb : b = wrap payload crc := deterministic_enc h6
    have ec : crc32 payload = crc := by
      by_contra hc
      have := fromCBORBody_wrap payload crc (by rw [ep]; exact payload_length a' hv') (by omega) []
        (by rw [Nat.mod_eq_of_lt h5]; exact hc)
      rw [List.append_nil, ← eb] at this
      rw [fromCBOR, this] at h
      cases h
    have e : b = toCBOR a' := by rw [eb, toCBOR, ← ep, ec]
    have := (C14_roundtrip_partial a' hv' ht').1
    rw [← e, h] at this
    rw [Out.ok.inj this, e]

/-- **C112 is false of the code**: every address has other bytes, and other Base58 texts, that are read as the same address:
anything may follow. -/
theorem C112_counterexample (a : Addr) (h : Valid a) (ht : a.type ≠ .redeem) (rest : Bytes) (hr : rest ≠ []) :
    fromCBOR (toCBOR a ++ rest) = .ok a ∧ toCBOR a ++ rest ≠ toCBOR a ∧
      ∃ s s', toBase58 a = .ok s ∧ s' ≠ s ∧ fromBase58 s = .ok a ∧ fromBase58 s' = .ok a := by
  have h1 : fromCBOR (toCBOR a ++ rest) = .ok a := by
    have := fromCBOR_wrap_payload a h (crc32 (payloadOf a)) (by have := crc32_lt (payloadOf a); omega)
      (Nat.mod_eq_of_lt (crc32_lt _)) rest
    rw [if_neg ht] at this
    exact this
  have hne : toCBOR a ++ rest ≠ toCBOR a := by simpa using hr
  obtain ⟨h2, s, h3, h4⟩ := C14_roundtrip_partial a h ht
  have hz : ∃ x ∈ toCBOR a ++ rest, x ≠ 0 := by
    refine ⟨0x82, List.mem_append_left _ ?_, by decide⟩
    simp [toCBOR, wrap, enc, encHeader]
  obtain ⟨s', g1, -, g2⟩ := Base58.C07_base58_roundtrip_partial _ hz
  refine ⟨h1, hne, s, s', h3, ?_, h4, by rw [fromBase58, g2]; exact h1⟩
  rintro rfl
  have hz' : ∃ x ∈ toCBOR a, x ≠ 0 := by
    refine ⟨0x82, ?_, by decide⟩
    simp [toCBOR, wrap, enc, encHeader]
  obtain ⟨s'', k1, -, k2⟩ := Base58.C07_base58_roundtrip_partial _ hz'
  rw [show toBase58 a = Base58.encode (toCBOR a) from rfl, k1] at h3
  rw [Out.ok.inj h3, g2] at k2
  exact hne (Out.ok.inj k2)

example : Valid ⟨List.replicate 28 5, [1, 2, 3], 0, .pubkey⟩ ∧ AddrType.pubkey ≠ .redeem ∧ ([0] : Bytes) ≠ [] := by
  refine ⟨⟨by decide, by decide, by decide⟩, by decide, by decide⟩

end Cardano.Byron
