import Verif.Model.Bech32
import Verif.Lemmas.Bits

/-! `convertbits` regroups the bit string. -/

namespace Cardano.Bech32

theorem drain_spec (t acc : Nat) (ht : 0 < t) : ∀ fuel bits, bits ≤ fuel →
    (drain t acc fuel bits).1 < t ∧
    (∀ g ∈ (drain t acc fuel bits).2, g < 2 ^ t) ∧
    groupBits t (drain t acc fuel bits).2 ++ toBits (drain t acc fuel bits).1 acc = toBits bits acc := by
  intro fuel
  induction fuel with
  | zero => intro bits h; simp [drain]; omega
  | succ fuel ih =>
    intro bits h
    by_cases hb : bits ≥ t
    · obtain ⟨h1, h2, h3⟩ := ih (bits - t) (by omega)
      simp only [drain, if_pos hb]
      refine ⟨h1, ?_, ?_⟩
      · intro g hg
        rcases List.mem_cons.1 hg with hg | hg
        · subst hg
          exact Nat.lt_of_le_of_lt Nat.and_le_right (Nat.sub_lt (Nat.two_pow_pos t) (by omega))
        · exact h2 g hg
      · rw [groupBits_cons, List.append_assoc, h3, toBits_and_mask (Nat.le_refl t), ← toBits_add]
        congr 1; omega
    · simp only [drain, if_neg hb]
      exact ⟨by omega, by simp, by simp⟩

theorem convLoop_spec (f t : Nat) (ht : 0 < t) : ∀ (vs : List Nat) (acc bits : Nat), bits < t →
    (∀ v ∈ vs, v < 2 ^ f) →
    ∃ acc' bits' out, convLoop f t acc bits vs = .ok (acc', bits', out) ∧ bits' < t ∧
      (∀ g ∈ out, g < 2 ^ t) ∧
      groupBits t out ++ toBits bits' acc' = toBits bits acc ++ groupBits f vs := by
  intro vs
  induction vs with
  | nil => intro acc bits hb _; exact ⟨acc, bits, [], rfl, hb, by simp, by simp⟩
  | cons v vs ih =>
    intro acc bits hb hv
    have hvlt : v < 2 ^ f := hv v (by simp)
    have hsh : v >>> f = 0 := by
      rw [Nat.shiftRight_eq_div_pow]; exact Nat.div_eq_of_lt hvlt
    let acc2 := ((acc <<< f) ||| v) &&& (2 ^ (f + t - 1) - 1)
    obtain ⟨d1, d2, d3⟩ := drain_spec t acc2 ht (bits + f) (bits + f) (Nat.le_refl _)
    obtain ⟨acc', bits', out, h1, h2, h3, h4⟩ := ih acc2 _ d1 (fun x hx => hv x (by simp [hx]))
    refine ⟨acc', bits', (drain t acc2 (bits + f) (bits + f)).2 ++ out, ?_, h2, ?_, ?_⟩
    · simp only [convLoop, hsh]
      simp only [ne_eq, not_true_eq_false, if_false]
      show (convLoop f t acc2 (drain t acc2 (bits + f) (bits + f)).1 vs).bind _ = _
      rw [h1]; rfl
    · intro g hg
      rcases List.mem_append.1 hg with hg | hg
      · exact d2 g hg
      · exact h3 g hg
    · rw [groupBits_append, List.append_assoc, h4, ← List.append_assoc, d3]
      rw [toBits_push hvlt (by omega)]
      simp

/-- Splitting 8-bit groups into 5-bit groups with zero padding. -/
theorem conv_pad_spec (f t : Nat) (ht : 0 < t) (data : List Nat) (hd : ∀ v ∈ data, v < 2 ^ f) :
    ∃ out p, convertbits data f t true = .ok out ∧ (∀ g ∈ out, g < 2 ^ t) ∧ p < t ∧
      groupBits t out = groupBits f data ++ List.replicate p false := by
  obtain ⟨acc, bits, out, h1, h2, h3, h4⟩ := convLoop_spec f t ht data 0 0 ht hd
  simp only [toBits, List.nil_append] at h4
  by_cases hb : bits = 0
  · subst hb
    refine ⟨out, 0, ?_, h3, ht, ?_⟩
    · simp [convertbits, h1, Out.bind]
    · simpa [toBits] using h4
  · refine ⟨out ++ [(acc <<< (t - bits)) &&& (2 ^ t - 1)], t - bits, ?_, ?_, by omega, ?_⟩
    · simp [convertbits, h1, Out.bind, hb]
    · intro g hg
      rcases List.mem_append.1 hg with hg | hg
      · exact h3 g hg
      · rw [List.mem_singleton] at hg; subst hg
        exact Nat.lt_of_le_of_lt Nat.and_le_right (Nat.sub_lt (Nat.two_pow_pos t) (by omega))
    · rw [groupBits_append, ← h4, groupBits_cons, groupBits_nil, List.append_nil, toBits_pad (by omega)]
      simp

/-- Without padding: success exactly when fewer than `f` bits remain and they are
zero; then the output has the input's bits up to that zero tail. -/
theorem conv_nopad_spec (f t : Nat) (ht : 0 < t) (data : List Nat) (hd : ∀ v ∈ data, v < 2 ^ f) :
    ∃ out rest, groupBits f data = groupBits t out ++ rest ∧ rest.length < t ∧ (∀ g ∈ out, g < 2 ^ t) ∧
      ((rest.length < f ∧ rest = List.replicate rest.length false ∧
          convertbits data f t false = .ok out) ∨
       (¬ (rest.length < f ∧ rest = List.replicate rest.length false) ∧
          convertbits data f t false = .throw .invalidArgument)) := by
  obtain ⟨acc, bits, out, h1, h2, h3, h4⟩ := convLoop_spec f t ht data 0 0 ht hd
  simp only [toBits, List.nil_append] at h4
  refine ⟨out, toBits bits acc, h4.symm, by simpa, h3, ?_⟩
  have key : (acc <<< (t - bits)) &&& (2 ^ t - 1) = 0 ↔ toBits bits acc = List.replicate bits false := by
    have hp := toBits_pad (b := bits) (t := t) (acc := acc) (by omega)
    constructor
    · intro h
      rw [h, toBits_zero] at hp
      have hr : List.replicate t false = List.replicate bits false ++ List.replicate (t - bits) false := by
        rw [List.replicate_append_replicate]; congr 1; omega
      rw [hr] at hp
      exact (List.append_inj hp (by simp)).1.symm
    · intro h
      apply toBits_eq_zeros (w := t)
      · rw [hp, h, List.replicate_append_replicate]; congr 1; omega
      · exact Nat.lt_of_le_of_lt Nat.and_le_right (Nat.sub_lt (Nat.two_pow_pos t) (by omega))
  by_cases hc : bits < f ∧ toBits bits acc = List.replicate bits false
  · left
    refine ⟨by simpa using hc.1, by simpa using hc.2, ?_⟩
    simp only [convertbits, h1, Out.bind, Bool.false_eq_true, if_false]
    rw [if_neg]
    rw [key.2 hc.2]; simp; exact hc.1
  · right
    refine ⟨by simpa using hc, ?_⟩
    simp only [convertbits, h1, Out.bind, Bool.false_eq_true, if_false]
    rw [if_pos]
    by_cases hb : bits < f
    · right
      intro h
      exact hc ⟨hb, key.1 h⟩
    · left; omega

/-- 8→5→8 round trip. -/
theorem conv_roundtrip (data out : List Nat) (hd : ∀ v ∈ data, v < 2 ^ 8)
    (h : convertbits data 8 5 true = .ok out) : convertbits out 5 8 false = .ok data := by
  obtain ⟨out', p, h1, h2, h3, h4⟩ := conv_pad_spec 8 5 (by omega) data hd
  rw [h1] at h; cases h
  obtain ⟨d, rest, e1, e2, e3, e4⟩ := conv_nopad_spec 5 8 (by omega) out h2
  rw [h4] at e1
  have hlen := congrArg List.length e1
  simp at hlen
  have hn : d.length = data.length := by omega
  have hr : rest.length = p := by omega
  have hsp := List.append_inj e1 (by simp [hn])
  have hdd : data = d := groupBits_inj hd e3 hn.symm hsp.1
  rcases e4 with e4 | e4
  · rw [e4.2.2, hdd]
  · exact absurd ⟨by omega, by rw [← hsp.2]; simp⟩ e4.1

theorem conv_reencode (vals out : List Nat) (hd : ∀ v ∈ vals, v < 2 ^ 5)
    (h : convertbits vals 5 8 false = .ok out) :
    (∀ v ∈ out, v < 2 ^ 8) ∧ convertbits out 8 5 true = .ok vals := by
  obtain ⟨d, rest, e1, e2, e3, e4⟩ := conv_nopad_spec 5 8 (by omega) vals hd
  rcases e4 with ⟨e5, e6, e7⟩ | e4
  · rw [e7] at h; injection h with h; subst h
    refine ⟨e3, ?_⟩
    obtain ⟨out', p, h1, h2, h3, h4⟩ := conv_pad_spec 8 5 (by omega) d e3
    rw [h1]
    have l1 := congrArg List.length e1
    have l4 := congrArg List.length h4
    simp at l1 l4
    have hn : out'.length = vals.length := by omega
    have hp : p = rest.length := by omega
    have : groupBits 5 out' = groupBits 5 vals := by rw [h4, e1, hp, ← e6]
    rw [groupBits_inj h2 hd hn this]
  · rw [e4.2] at h; cases h

end Cardano.Bech32
