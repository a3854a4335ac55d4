import Verif.Props.Hex
import Verif.Props.Bech32
import Verif.Props.Base58

/-! # C03, C07: the variants of the text codecs for hexadecimal text -/

namespace Cardano

open Hex

/-- A hexadecimal text stands for exactly one byte string. -/
theorem hex_text (t : Bytes) (he : t.length % 2 = 0) (hd : ∀ c ∈ t, specHexDigit c) :
    ∃ data, Hex.decode t = .ok data ∧ Hex.encode data = t.map toLower := by
  obtain ⟨h1, -, h3⟩ := C02_hex_decode_exact t
  obtain ⟨data, h⟩ := h1.mpr ⟨he, hd⟩
  exact ⟨data, h, h3 data h⟩

/-- **C03** (hexadecimal).  Encoding a hexadecimal text gives the Bech32 text of the bytes it stands for, and decoding that to
hexadecimal gives the same text in lower case; any other text is refused. -/
theorem C03_bech32_hex (hrp t : Bytes) (hne : hrp ≠ []) (hup : ∀ c ∈ hrp, ¬ Bech32.specUpper c) :
    ((t.length % 2 = 0 ∧ ∀ c ∈ t, specHexDigit c) → ∃ s data, Bech32.encodeHex hrp t = .ok s ∧
      Bech32.decodeHex s = .ok (hrp, t.map toLower) ∧ Bech32.decode s = .ok (hrp, data) ∧ Hex.encode data = t.map toLower) ∧
    (¬ (t.length % 2 = 0 ∧ ∀ c ∈ t, specHexDigit c) → Bech32.encodeHex hrp t = .throw .invalidArgument) := by
  constructor
  · rintro ⟨he, hd⟩
    obtain ⟨data, h1, h2⟩ := hex_text t he hd
    obtain ⟨s, h3, h4⟩ := (Bech32.C03_bech32_roundtrip hrp data).1 hne hup
    refine ⟨s, data, ?_, ?_, h4, h2⟩
    · rw [Bech32.encodeHex, h1]; exact h3
    · rw [Bech32.decodeHex, h4, ← h2]; rfl
  · intro h
    obtain ⟨h1, h2, -⟩ := C02_hex_decode_exact t
    rw [Bech32.encodeHex, h2 fun hb => h (h1.mp hb)]; rfl

/-- **C07 (partial)** (hexadecimal).  Missing: as for the bytes, the texts without a digit other than `0`, for which the claim
is false (`C07_base58_hex_counterexample`).  The same for Base58, leading zeros included. -/
theorem C07_base58_hex_partial (t : Bytes) :
    ((t.length % 2 = 0 ∧ (∀ c ∈ t, specHexDigit c) ∧ ∃ c ∈ t, c ≠ 48) → ∃ s data, Base58.encodeHex t = .ok s ∧
      Base58.decodeHex s = .ok (t.map toLower) ∧ Base58.decode s = .ok data ∧ Hex.encode data = t.map toLower) ∧
    (¬ (t.length % 2 = 0 ∧ ∀ c ∈ t, specHexDigit c) → Base58.encodeHex t = .throw .invalidArgument) := by
  constructor
  · rintro ⟨he, hd, c, hc, h0⟩
    obtain ⟨data, h1, h2⟩ := hex_text t he hd
    have hz : ∃ b ∈ data, b ≠ 0 := by
      by_contra hall
      simp only [not_exists, not_and, not_not] at hall
      have e : ∀ d : Bytes, (∀ b ∈ d, b = 0) → ∀ x ∈ Hex.encode d, x = 48 := by
        intro d
        induction d with
        | nil => intro _ x hx; simp [Hex.encode] at hx
        | cons b d ih =>
          intro hb x hx
          rw [Hex.encode, List.mem_append] at hx
          rcases hx with hx | hx
          · rw [hb b (by simp)] at hx
            revert x; decide
          · exact ih (fun y hy => hb y (by simp [hy])) x hx
      have := e data hall (toLower c) (by rw [h2]; exact List.mem_map_of_mem hc)
      have low : ∀ c : UInt8, toLower c = 48 → c = 48 := forall_byte (by decide +kernel)
      exact h0 (low c this)
    obtain ⟨s, h3, -, h4⟩ := Base58.C07_base58_roundtrip_partial data hz
    refine ⟨s, data, ?_, ?_, h4, h2⟩
    · rw [Base58.encodeHex, h1]; exact h3
    · rw [Base58.decodeHex, h4, ← h2]; rfl
  · intro h
    obtain ⟨h1, h2, -⟩ := C02_hex_decode_exact t
    rw [Base58.encodeHex, h2 fun hb => h (h1.mp hb)]; rfl

/-- **C07 is false of the code** for hexadecimal texts of zeros too. -/
theorem C07_base58_hex_counterexample :
    Base58.encodeHex [] = .ub ∧ (Base58.encodeHex (ascii "00")).bind Base58.decodeHex = .ok (ascii "0000") := by decide +kernel

example : (ascii "00fFA7").length % 2 = 0 ∧ (∀ c ∈ ascii "00fFA7", specHexDigit c) ∧ (∃ c ∈ ascii "00fFA7", c ≠ 48) ∧
    ascii "pool" ≠ [] ∧ ∀ c ∈ ascii "pool", ¬ Bech32.specUpper c := by decide +kernel

/-- Concrete: the text comes back in lower case. -/
example : (Base58.encodeHex (ascii "00fFA7")).bind Base58.decodeHex = .ok (ascii "00ffa7") ∧
    (Bech32.encodeHex (ascii "pool") (ascii "00fFA7")).bind Bech32.decodeHex = .ok (ascii "pool", ascii "00ffa7") := by
  decide +kernel

end Cardano
