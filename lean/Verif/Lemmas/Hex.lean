import Verif.Model.Hex
import Verif.Spec.Hex

namespace Cardano.Hex

theorem isHexChar_iff : ∀ c : UInt8, isHexChar c = true ↔ specHexDigit c :=
  forall_byte (by decide +kernel)

theorem byteChars_digits : ∀ b : UInt8, ∀ c ∈ byteChars b, specLowerDigit c :=
  forall_byte (by decide +kernel)

theorem lower_is_hex : ∀ c : UInt8, specLowerDigit c → specHexDigit c :=
  forall_byte (by decide +kernel)

theorem digitVal_byteChars : ∀ b : UInt8,
    digitVal (digitChar (b.toNat / 16)) = some (b.toNat / 16) ∧
    digitVal (digitChar (b.toNat % 16)) = some (b.toNat % 16) :=
  forall_byte (by decide +kernel)

/-- each digit character: value and reprinting -/
theorem digit_reprint : ∀ c : UInt8, specHexDigit c →
    ∃ v, digitVal c = some v ∧ v < 16 ∧ digitChar v = toLower c := by
  have h : ∀ c : UInt8, specHexDigit c →
      (digitVal c).any (fun v => decide (v < 16) && digitChar v == toLower c) = true :=
    forall_byte (by decide +kernel)
  intro c hc
  have := h c hc
  cases hv : digitVal c with
  | none => simp [hv] at this
  | some v =>
    simp [hv] at this
    exact ⟨v, rfl, this.1, this.2⟩

theorem encode_length (b : Bytes) : (encode b).length = 2 * b.length := by
  induction b with
  | nil => rfl
  | cons x xs ih => simp [encode, byteChars, ih]; omega

theorem encode_digits (b : Bytes) : ∀ c ∈ encode b, specLowerDigit c := by
  induction b with
  | nil => simp [encode]
  | cons x xs ih =>
    intro c hc
    rw [encode, List.mem_append] at hc
    rcases hc with hc | hc
    · exact byteChars_digits x c hc
    · exact ih c hc

theorem pairs_encode (b : Bytes) : pairs (encode b) = .ok b := by
  induction b with
  | nil => rfl
  | cons x xs ih =>
    have h := digitVal_byteChars x
    simp only [encode, byteChars, List.cons_append, List.nil_append, pairs, h.1, h.2, ih, Out.bind]
    congr 2
    rw [Nat.div_add_mod]
    simp

theorem pairs_ok (s : Bytes) (heven : s.length % 2 = 0) (hd : ∀ c ∈ s, specHexDigit c) :
    ∃ b, pairs s = .ok b ∧ encode b = s.map toLower := by
  induction s using pairs.induct with
  | case1 => exact ⟨[], rfl, rfl⟩
  | case2 => simp at heven
  | case3 a b rest h =>
    obtain ⟨v, hv, _⟩ := digit_reprint a (hd a (by simp))
    simp [hv] at h
  | case4 a b rest x h ih =>
    obtain ⟨x', hx', hxlt, hxr⟩ := digit_reprint a (hd a (by simp))
    obtain ⟨y, hy, hylt, hyr⟩ := digit_reprint b (hd b (by simp))
    have hxx : x' = x := by rw [h] at hx'; exact (Option.some.inj hx').symm
    subst hxx
    obtain ⟨bs, hbs, henc⟩ := ih (by simp at heven; omega) (fun c hc => hd c (by simp [hc]))
    refine ⟨UInt8.ofNat (16 * x' + y) :: bs, ?_, ?_⟩
    · simp [pairs, h, hy, hbs, Out.bind]
    · have hlt : 16 * x' + y < 256 := by omega
      have h1 : (UInt8.ofNat (16 * x' + y)).toNat = 16 * x' + y := by
        simp [UInt8.toNat_ofNat']; omega
      simp only [encode, byteChars, h1, List.map_cons, ← hxr, ← hyr, henc]
      have : (16 * x' + y) / 16 = x' := by omega
      have : (16 * x' + y) % 16 = y := by omega
      simp [*]

end Cardano.Hex
