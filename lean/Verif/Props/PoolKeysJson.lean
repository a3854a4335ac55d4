import Verif.Props.EnvelopeJson
import Verif.Props.PoolKeysCrash

/-! # C105 with C106: what a reader finds after the example program was killed -/

namespace Cardano.PoolKeys

open Cardano Cardano.Ed Cardano.Util Cardano.Pool Cardano.Spec.Json

/-- Every file of the program is an envelope with plain fields. -/
theorem content_safe (v : Values) (b : Bytes) : ∀ n ∈ names, ∃ t d c, Safe t ∧ Safe d ∧ Safe c ∧ v.content b n = specEnvelope t d c := by
  have p1 : Safe (ascii "5820") := by unfold Safe; decide +kernel
  have p2 : Safe (ascii "5840") := by unfold Safe; decide +kernel
  have p3 : Safe (ascii "590260") := by unfold Safe; decide +kernel
  have p4 : Safe (ascii "82005820") := by unfold Safe; decide +kernel
  have p5 : Safe (ascii "82") := by unfold Safe; decide +kernel
  intro n hn
  simp only [names, List.mem_cons, List.not_mem_nil, or_false] at hn
  rcases hn with rfl | rfl | rfl | rfl | rfl | rfl | rfl | rfl
  · exact ⟨_, _, _, by unfold Safe; decide +kernel, by unfold Safe; decide +kernel, safe_append p2 (safe_hex _), rfl⟩
  · exact ⟨_, _, _, by unfold Safe; decide +kernel, by unfold Safe; decide +kernel, safe_append p1 (safe_hex _), rfl⟩
  · exact ⟨_, _, _, by unfold Safe; decide +kernel, by unfold Safe; decide +kernel, safe_append p3 (safe_hex _), rfl⟩
  · exact ⟨_, _, _, by unfold Safe; decide +kernel, by unfold Safe; decide +kernel, safe_append p1 (safe_hex _), rfl⟩
  · exact ⟨_, _, _, by unfold Safe; decide +kernel, by unfold Safe; decide +kernel, safe_append p4 (safe_hex _), rfl⟩
  · exact ⟨_, _, _, by unfold Safe; decide +kernel, by simp [Safe],
      safe_append (safe_append (safe_append p5 (safe_hex _)) p1) (safe_hex _), rfl⟩
  · exact ⟨_, _, _, by unfold Safe; decide +kernel, by unfold Safe; decide +kernel, safe_append p2 (safe_hex _), rfl⟩
  · exact ⟨_, _, _, by unfold Safe; decide +kernel, by unfold Safe; decide +kernel, safe_append p1 (safe_hex _), rfl⟩

/-- **C105** The program killed at any moment, started in any directory: a JSON reader that opens one of its eight files finds what
was there before, or the complete text envelope of this run, or it rejects the file; it never reads a part of a key. -/
theorem C105_readable (E : Env) (S : SigHash) (dk : String → Disk) (text kesSeed vrfRandom : Bytes)
    (mn : Mnemonic.Mn) (hmn : Mnemonic.ofString .english text = .ok mn) (hk : kesSeed.length = 32) (hv : vrfRandom.length = 32)
    (hnonce : ∀ k msg hot, fromMnemonic E mn = .ok k → hot.length = 32 → SignableBytes hot 0 1 msg →
      ¬ ellL ∣ leNat (E.P.sha512 (k.key.drop 32 ++ msg))) (hg : ∀ n ∈ names, Good (dk n)) :
    ∃ v b, fromMnemonic E mn = .ok v.coldSkey ∧ Consistent E S kesSeed v b ∧
      ∀ fs fs', Killed dk (prog E S text kesSeed vrfRandom) fs fs' → ∀ n ∈ names,
        fs' n = fs n ∨ (∃ t d c, fs' n = some (v.content b n) ∧ IsEnvelope (v.content b n) t d c) ∨
          ∃ f, fs' n = some f ∧ ∀ x, ¬ Text f x := by
  obtain ⟨v, b, h1, h2, h3⟩ := C105_killed_iff E S dk text kesSeed vrfRandom mn hmn hk hv hnonce hg
  refine ⟨v, b, h1, h2, fun fs fs' hkd n hn => ?_⟩
  obtain ⟨t, d, c, st, sd, sc, e⟩ := content_safe v b n hn
  have full : IsEnvelope (v.content b n) t d c := by rw [e]; exact isEnvelope st sd sc
  obtain ⟨i, -, q1, q2, q3⟩ := (h3 fs fs').mp hkd
  by_cases a1 : n ∈ names.take i
  · exact .inr (.inl ⟨t, d, c, q1 n a1, full⟩)
  by_cases a2 : n ∈ names.take (i + 1)
  · rw [List.take_add_one] at a2
    rcases List.mem_append.mp a2 with a2 | a2
    · exact absurd a2 a1
    · have : names[i]? = some n := by simpa using a2
      rcases q2 n this with q | ⟨f, q, hf⟩
      · exact .inl q
      · right
        by_cases hc : f = v.content b n
        · exact .inl ⟨t, d, c, by rw [q, hc], full⟩
        · refine .inr ⟨f, q, fun x => ?_⟩
          rw [e] at hf hc
          exact torn ⟨safe_plain st, safe_plain sd, safe_plain sc⟩ hf hc x
  · exact .inl (q3 n a2)

end Cardano.PoolKeys
