import Verif.Lemmas.Hex

/-! # C01, C02: hexadecimal text -/

namespace Cardano.Hex

/-- **C01.** `decode ∘ encode = id`, and `encode` prints exactly two lower-case
digits per byte. -/
theorem C01_hex_roundtrip (b : Bytes) :
    decode (encode b) = .ok b ∧ (encode b).length = 2 * b.length ∧
      ∀ c ∈ encode b, specLowerDigit c := by
  refine ⟨?_, encode_length b, encode_digits b⟩
  unfold decode
  rw [if_neg (by rw [encode_length]; omega), if_neg, pairs_encode]
  simp only [List.any_eq_true, not_exists, not_and]
  intro c hc
  have := (isHexChar_iff c).2 (lower_is_hex c (encode_digits b c hc))
  simp [this]

/-- **C02.** `decode` succeeds exactly on even-length strings of hexadecimal
digits, otherwise it throws (never undefined behaviour); and re-encoding a
decoded string gives that string in lower case. -/
theorem C02_hex_decode_exact (s : Bytes) :
    ((∃ b, decode s = .ok b) ↔ (s.length % 2 = 0 ∧ ∀ c ∈ s, specHexDigit c)) ∧
    ((¬ ∃ b, decode s = .ok b) → decode s = .throw .invalidArgument) ∧
    (∀ b, decode s = .ok b → encode b = s.map toLower) := by
  by_cases heven : s.length % 2 = 0
  · by_cases hd : ∀ c ∈ s, specHexDigit c
    · have hany : s.any (fun c => !isHexChar c) = false := by
        rw [List.any_eq_false]
        intro c hc
        simp [(isHexChar_iff c).2 (hd c hc)]
      have hdec : decode s = pairs s := by simp [decode, heven, hany]
      obtain ⟨b, hb, he⟩ := pairs_ok s heven hd
      rw [hdec, hb]
      refine ⟨⟨fun _ => ⟨heven, hd⟩, fun _ => ⟨b, rfl⟩⟩, fun h => absurd ⟨b, rfl⟩ h, ?_⟩
      intro b' hb'
      cases hb'; exact he
    · have hany : s.any (fun c => !isHexChar c) = true := by
        rw [List.any_eq_true]
        simp only [Classical.not_forall] at hd
        obtain ⟨c, hc, hn⟩ := hd
        refine ⟨c, hc, ?_⟩
        have : isHexChar c ≠ true := fun h => hn ((isHexChar_iff c).1 h)
        simpa using this
      have hdec : decode s = .throw .invalidArgument := by simp [decode, heven, hany]
      rw [hdec]
      simp [hd]
  · have hdec : decode s = .throw .invalidArgument := by simp [decode, heven]
    rw [hdec]
    simp [heven]

/-- non-vacuity: a mixed-case accepted string, an odd one and a bad character -/
example : decode (ascii "00fFA7") = .ok [0, 255, 167] ∧
    decode (ascii "abc") = .throw .invalidArgument ∧
    decode (ascii "0g") = .throw .invalidArgument := by decide +kernel

end Cardano.Hex
