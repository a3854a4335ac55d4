import Verif.Lemmas.Cbor

/-! # C47: CBOR items are uniquely decodable -/

namespace Cardano.Cbor

/-- **C47.** Every item tree that the item classes can hold is read back by the parser from
its encoding, whatever bytes follow; hence different items have different encodings and
no encoding is an initial part of another one. -/
theorem C47_unique_decodable (i j : Item) (hi : WF i) (hj : WF j) :
    (∀ rest, parse (enc i ++ rest) = some i) ∧
    (enc i = enc j → i = j) ∧
    (enc i <+: enc j → i = j) := by
  refine ⟨parse_enc_append i hi, ?_, ?_⟩
  · intro h
    have h1 := parse_enc i hi
    rw [h, parse_enc j hj] at h1
    exact (Option.some.inj h1).symm
  · rintro ⟨r, hr⟩
    have h1 := parse_enc_append i hi r
    rw [hr, parse_enc j hj] at h1
    exact (Option.some.inj h1).symm

-- a nested well-formed item with long headers
example : WF (.array [.tag 24 (.bstr (List.replicate 300 1)), .map [.uint 70000, .nint 0], .null]) := by
  refine .array (by simp only [List.length_cons, List.length_nil]; omega) ?_
  intro i hi
  simp only [List.mem_cons, List.not_mem_nil, or_false] at hi
  rcases hi with rfl | rfl | rfl
  · exact .tag (by omega) (.bstr (by rw [List.length_replicate]; omega))
  · refine .map (by simp) (by simp) ?_
    intro j hj
    simp only [List.mem_cons, List.not_mem_nil, or_false] at hj
    rcases hj with rfl | rfl
    · exact .uint (by omega)
    · exact .nint (by omega)
  · exact .null

/-- Encoded headers are the shortest possible (canonical CBOR): an argument below 24 takes
one byte, and `1`, `2`, `4` or `8` further bytes are used only if fewer do not suffice. -/
theorem C47_shortest_header (major n : Nat) :
    (encHeader major n).length =
      if n < 24 then 1 else if n < 2 ^ 8 then 2 else if n < 2 ^ 16 then 3 else if n < 2 ^ 32 then 5 else 9 := by
  unfold encHeader
  by_cases h1 : n < 24
  · simp [h1]
  by_cases h2 : n < 2 ^ 8
  · simp only [h1, h2, if_true, if_false, List.length_cons, Util.packBE_length]
  by_cases h3 : n < 2 ^ 16
  · simp only [h1, h2, h3, if_true, if_false, List.length_cons, Util.packBE_length]
  by_cases h4 : n < 2 ^ 32
  · simp only [h1, h2, h3, h4, if_true, if_false, List.length_cons, Util.packBE_length]
  · simp only [h1, h2, h3, h4, if_false, List.length_cons, Util.packBE_length]

end Cardano.Cbor
