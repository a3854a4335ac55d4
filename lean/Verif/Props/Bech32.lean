import Verif.Lemmas.Bech32
import Mathlib.Tactic.ByContra

/-! # C03–C06: Bech32 text -/

namespace Cardano.Bech32

/-- **C03.** Encoding any payload under any non-empty prefix without upper-case
letters succeeds and decoding the text gives back exactly that prefix and payload;
a prefix with an upper-case letter is refused. -/
theorem C03_bech32_roundtrip (hrp data : Bytes) :
    (hrp ≠ [] → (∀ c ∈ hrp, ¬ specUpper c) →
      ∃ s, encode hrp data = .ok s ∧ decode s = .ok (hrp, data)) ∧
    ((∃ c ∈ hrp, specUpper c) → encode hrp data = .throw .invalidArgument) := by
  constructor
  · intro hne hup
    have hany : hrp.any isUpper = false := by
      rw [List.any_eq_false]
      intro c hc h
      exact hup c hc ((isUpper_iff c).1 h)
    have hd : ∀ v ∈ data.map UInt8.toNat, v < 2 ^ 8 := by
      intro v hv
      obtain ⟨b, _, rfl⟩ := List.mem_map.1 hv
      exact b.toNat_lt
    obtain ⟨un, p, h1, h2, h3, h4⟩ := conv_pad_spec 8 5 (by omega) _ hd
    have hall : ∀ v ∈ un ++ createChecksum hrp un, v < 32 := by
      intro v hv
      rcases List.mem_append.1 hv with hv | hv
      · exact h2 v hv
      · exact createChecksum_lt hrp un v hv
    obtain ⟨cs, c1, c2, c3, c4, c5⟩ := chars_ok _ hall
    have hlow : hrp.map toLower = hrp := by
      exact (List.map_congr_left (g := id) (fun c hc => toLower_of_not_upper c (hup c hc))).trans (List.map_id _)
    refine ⟨hrp ++ [49] ++ cs, ?_, ?_⟩
    · simp [encode, hany, h1, c1]
    · rw [List.append_assoc, List.singleton_append, decode_split hrp cs c4]
      have hlen : cs.length = un.length + 6 := by rw [c2, List.length_append, createChecksum_len]
      rw [if_neg (by simp [hne]; omega), c5, c3, hlow]
      have hver : verifyChecksum hrp (un ++ createChecksum hrp un) = true :=
        (checksum_unique hrp un _ h2 (createChecksum_lt hrp un) rfl).2 rfl
      have hrt := conv_roundtrip _ un hd h1
      simp only [Out.ok_bind, hver, if_true, take_drop_len un (createChecksum hrp un) 6 rfl, hrt,
        map_ofNat_toNat, Out.pure_eq]
  · rintro ⟨c, hc, hup⟩
    have : hrp.any isUpper = true := List.any_eq_true.2 ⟨c, hc, (isUpper_iff c).2 hup⟩
    simp [encode, this]

example : (ascii "addr_test") ≠ [] ∧ ∀ c ∈ ascii "addr_test", ¬ specUpper c := by decide +kernel

/-- **C04.** Whatever `decode` accepts re-encodes to the same text in lower case;
hence two accepted strings with the same value are equal up to letter case. -/
theorem C04_bech32_canonical (s hrp data : Bytes) (h : decode s = .ok (hrp, data)) :
    encode hrp data = .ok (s.map toLower) := by
  have hr : ∃ pos, rfind 49 (s.map toLower) = some pos := by
    unfold decode at h
    cases hr : rfind 49 (s.map toLower) with
    | none => simp [hr] at h
    | some pos => exact ⟨pos, rfl⟩
  obtain ⟨pos, hr⟩ := hr
  obtain ⟨h1, h2, h3⟩ := rfind_some hr
  -- work with the lower-cased string, which decodes identically
  generalize hp : (s.map toLower).take pos = p at h1
  generalize ht : (s.map toLower).drop (pos + 1) = t at h1 h2
  have hll := map_toLower_idem s
  have hdec : decode (s.map toLower) = .ok (hrp, data) := by
    rw [← h]; unfold decode; simp only [hll, List.length_map]
  have hpl : p.map toLower = p := by
    rw [← hp, ← List.map_take]; exact map_toLower_idem _
  have htl : t.map toLower = t := by
    rw [← ht, ← List.map_drop]; exact map_toLower_idem _
  rw [h1, decode_split p t h2] at hdec
  split at hdec
  · cases hdec
  · rename_i hc
    simp only [not_or] at hc
    rw [htl, hpl, Out.bind_eq_ok] at hdec
    obtain ⟨vals, hv, hdec⟩ := hdec
    obtain ⟨v1, v2, v3⟩ := values_ok t vals htl hv
    split at hdec
    · rename_i hver
      rw [Out.bind_eq_ok] at hdec
      obtain ⟨packed, hpk, hdec⟩ := hdec
      simp at hdec
      obtain ⟨rfl, rfl⟩ := hdec
      have hspl : vals = vals.take (vals.length - 6) ++ vals.drop (vals.length - 6) :=
        (List.take_append_drop _ _).symm
      have htk : ∀ v ∈ vals.take (vals.length - 6), v < 32 := fun v hv => v1 v (List.mem_of_mem_take hv)
      have hdr : ∀ v ∈ vals.drop (vals.length - 6), v < 32 := fun v hv => v1 v (List.mem_of_mem_drop hv)
      have hcs : vals.drop (vals.length - 6) = createChecksum p (vals.take (vals.length - 6)) := by
        apply (checksum_unique p _ _ htk hdr (by simp; omega)).1
        rw [← hspl]; exact hver
      obtain ⟨r1, r2⟩ := conv_reencode _ packed htk hpk
      have hnu : p.any isUpper = false := by
        rw [List.any_eq_false]
        intro c hc h
        rw [← hpl] at hc
        obtain ⟨x, _, rfl⟩ := List.mem_map.1 hc
        exact toLower_not_upper x ((isUpper_iff _).1 h)
      unfold encode
      simp only [hnu, Bool.false_eq_true, if_false]
      rw [map_toNat_ofNat _ r1, r2]
      simp only [Out.ok_bind]
      rw [← hcs, List.take_append_drop, v2, h1]
      simp
    · cases hdec

/-- decoding distinguishes texts: same value ⇒ same text up to case -/
theorem C04_bech32_injective (s t : Bytes) (v : Bytes × Bytes) (hs : decode s = .ok v) (ht : decode t = .ok v) :
    sameUpToCase s t := by
  have h1 := C04_bech32_canonical s v.1 v.2 hs
  have h2 := C04_bech32_canonical t v.1 v.2 ht
  rw [h1] at h2
  exact Out.ok.inj h2

example : decode (ascii "A12UEL5L") = .ok (ascii "a", []) := by decide +kernel

/-- **C05.** Replace any window `w` of at most six consecutive characters of the
data part of a valid string by other characters `w'` of the same number (ASCII,
not the separator), so that the text changes by more than letter case: the result
is always rejected with an exception. Single substitutions and transpositions are
special cases. -/
theorem C05_bech32_burst_detected (p a w w' b : Bytes) (v : Bytes × Bytes)
    (hsep : ∀ c ∈ a ++ w ++ w' ++ b, c ≠ 49) (hasc : ∀ c ∈ w', specAscii c)
    (hlen : w.length = w'.length) (hsix : w.length ≤ 6) (hdiff : ¬ sameUpToCase w w')
    (hok : decode (p ++ [49] ++ a ++ w ++ b) = .ok v) :
    decode (p ++ [49] ++ a ++ w' ++ b) = .throw .invalidArgument := by
  have e1 : p ++ [49] ++ a ++ w ++ b = p ++ 49 :: (a ++ w ++ b) := by simp
  have e2 : p ++ [49] ++ a ++ w' ++ b = p ++ 49 :: (a ++ w' ++ b) := by simp
  rw [e1, decode_split _ _ (by intro c hc; apply hsep c; simp only [List.mem_append] at hc ⊢; grind)] at hok
  rw [e2, decode_split _ _ (by intro c hc; apply hsep c; simp only [List.mem_append] at hc ⊢; grind)]
  have hl : (a ++ w' ++ b).length = (a ++ w ++ b).length := by simp [hlen]
  rw [hl]
  split at hok
  · cases hok
  rename_i hc
  rw [if_neg hc]
  rw [Out.bind_eq_ok] at hok
  obtain ⟨vals, hv, hok⟩ := hok
  have hver : verifyChecksum (p.map toLower) vals = true := by
    by_contra hn
    simp [hn] at hok
  simp only [List.map_append, values_append] at hv ⊢
  obtain ⟨va, hva⟩ : ∃ va, values (a.map toLower) = .ok va := by
    cases hx : values (a.map toLower) <;> simp [hx, Out.bind] at hv ⊢
  obtain ⟨vw, hvw⟩ : ∃ vw, values (w.map toLower) = .ok vw := by
    cases hx : values (w.map toLower) <;> simp [hva, hx, Out.bind] at hv ⊢
  obtain ⟨vb, hvb⟩ : ∃ vb, values (b.map toLower) = .ok vb := by
    cases hx : values (b.map toLower) <;> simp [hva, hvw, hx, Out.bind] at hv ⊢
  simp only [hva, hvw, hvb, Out.bind, Out.ok.injEq] at hv
  subst hv
  have hlow := map_toLower_idem
  have ha := values_ok _ _ (hlow a) hva
  have hw := values_ok _ _ (hlow w) hvw
  have hb := values_ok _ _ (hlow b) hvb
  rcases values_ascii (w'.map toLower) (by
      intro c hc
      obtain ⟨x, hx, rfl⟩ := List.mem_map.1 hc
      exact toLower_ascii x (hasc x hx)) with ⟨vw', hvw'⟩ | hbad
  · have hw' := values_ok _ _ (hlow w') hvw'
    simp only [hva, hvw', hvb, Out.bind, Out.ok_bind]
    rw [if_neg]
    intro hver'
    apply hdiff
    -- equal checksums force equal windows
    have hww : vw = vw' := by
      unfold verifyChecksum at hver hver'
      rw [beq_iff_eq] at hver hver'
      rw [polymod_eq, ← List.append_assoc, ← List.append_assoc, pm_append, pm_append _ _ vw] at hver
      rw [polymod_eq, ← List.append_assoc, ← List.append_assoc, pm_append, pm_append _ _ vw'] at hver'
      have hc1 : pm 1 (expandHrp (p.map toLower) ++ va) < 2 ^ 30 := by
        apply pm_lt (by decide)
        intro v hv
        rcases List.mem_append.1 hv with hv | hv
        · exact expandHrp_lt _ v hv
        · exact ha.1 v hv
      have h1 := pm_state_inj (pm_lt hc1 hw.1) (pm_lt hc1 hw'.1) hb.1 (hver.trans hver'.symm)
      refine pm_window_inj hc1 ?_ ?_ hw.1 hw'.1 h1
      · rw [hw.2.2, hw'.2.2]; simp [hlen]
      · rw [hw.2.2]; simpa using hsix
    unfold sameUpToCase
    have h1 := hw.2.1
    rw [hww, hw'.2.1] at h1
    exact (Out.ok.inj h1).symm
  · simp [hva, hbad, Out.bind]

/-- non-vacuity of C05: a two-character swap in a valid string -/
example : decode (ascii "a12uel5l") = .ok (ascii "a", []) ∧ ¬ sameUpToCase (ascii "ue") (ascii "eu") ∧
    decode (ascii "a12eul5l") = .throw .invalidArgument := by
  unfold sameUpToCase; decide +kernel

/-- **C06 is false of the code**: a non-ASCII character in the data part makes
`decode` read outside `B32_CHARSET_REV`. -/
theorem C06_bech32_decode_ub_witness : decode (ascii "a1" ++ [200, 113, 113, 113, 113, 113]) = .ub := by
  decide +kernel

/-- What the table says about each byte. -/
theorem rev_byte (c : UInt8) :
    (charsetRev[(toLower c).toNat]? = none ↔ 128 ≤ c.toNat) ∧
    (c.toNat < 128 → (charsetRev[(toLower c).toNat]? = some (-1) ↔ ¬ specBech32Char c)) :=
  forall_byte (p := fun c => (charsetRev[(toLower c).toNat]? = none ↔ 128 ≤ c.toNat) ∧
    (c.toNat < 128 → (charsetRev[(toLower c).toNat]? = some (-1) ↔ ¬ specBech32Char c))) (by decide +kernel) c

theorem values_ub_iff (t : Bytes) : values (t.map toLower) = .ub ↔
    ∃ a c b, t = a ++ c :: b ∧ 128 ≤ c.toNat ∧ ∀ x ∈ a, specBech32Char x := by
  induction t with
  | nil => simp [values]
  | cons c cs ih =>
    obtain ⟨r1, r2⟩ := rev_byte c
    rw [List.map_cons, values]
    cases hr : charsetRev[(toLower c).toNat]? with
    | none =>
      simp only [true_iff]
      exact ⟨[], c, cs, rfl, r1.1 hr, by simp⟩
    | some r =>
      have hlt : c.toNat < 128 := by
        apply Nat.lt_of_not_le
        intro h
        rw [r1.2 h] at hr
        cases hr
      have hcase : (∃ a c' b, c :: cs = a ++ c' :: b ∧ 128 ≤ c'.toNat ∧ ∀ x ∈ a, specBech32Char x) ↔
          specBech32Char c ∧ ∃ a c' b, cs = a ++ c' :: b ∧ 128 ≤ c'.toNat ∧ ∀ x ∈ a, specBech32Char x := by
        constructor
        · rintro ⟨a, c', b, h1, h2, h3⟩
          cases a with
          | nil =>
            have := (List.cons.inj h1).1
            subst this
            omega
          | cons x a =>
            rw [List.cons_append] at h1
            have e1 := (List.cons.inj h1).1
            have e2 := (List.cons.inj h1).2
            exact ⟨h3 c (by simp [e1]), a, c', b, e2, h2, fun x hx => h3 x (by simp [hx])⟩
        · rintro ⟨h0, a, c', b, h1, h2, h3⟩
          refine ⟨c :: a, c', b, by rw [h1]; rfl, h2, ?_⟩
          intro x hx
          rcases List.mem_cons.1 hx with rfl | hx
          · exact h0
          · exact h3 x hx
      rw [hcase, ← ih]
      simp only
      by_cases hn : r = -1
      · subst hn
        rw [if_pos rfl]
        have := (r2 hlt).1 hr
        simp [this]
      · rw [if_neg hn]
        have hc : specBech32Char c := by
          by_cases hc : specBech32Char c
          · exact hc
          · have := (r2 hlt).2 hc
            rw [hr] at this
            exact absurd (Option.some.inj this) hn
        simp only [hc, true_and]
        cases values (cs.map toLower) <;> simp [Out.bind]

/-- **C06, exactly when.** `decode` reads outside its table precisely on the strings
`prefix 1 data` (the last `1` being the separator) with a non-empty prefix and at least six data
characters in which a byte ≥ 128 comes before every other character that is not in the Bech32
alphabet.  On all other strings - non-ASCII bytes in the prefix included - it returns or
throws. -/
theorem C06_bech32_ub_iff (s : Bytes) : decode s = .ub ↔
    ∃ p a c b, s = p ++ 49 :: (a ++ c :: b) ∧ (∀ x ∈ a ++ c :: b, x ≠ 49) ∧ p ≠ [] ∧ 6 ≤ (a ++ c :: b).length ∧
      128 ≤ c.toNat ∧ ∀ x ∈ a, specBech32Char x := by
  have fwd : ∀ p t : Bytes, (∀ x ∈ t, x ≠ 49) → (decode (p ++ 49 :: t) = .ub ↔
      p ≠ [] ∧ 6 ≤ t.length ∧ values (t.map toLower) = .ub) := by
    intro p t ht
    rw [decode_split p t ht]
    by_cases hc : p = [] ∨ t.length < 6
    · rw [if_pos hc]
      constructor
      · intro h; cases h
      · rintro ⟨h1, h2, _⟩
        rcases hc with hc | hc
        · exact absurd hc h1
        · omega
    · rw [if_neg hc]
      have hc : p ≠ [] ∧ 6 ≤ t.length := ⟨fun h => hc (.inl h), Nat.le_of_not_lt fun h => hc (.inr h)⟩
      simp only [hc, ne_eq, not_false_eq_true, true_and]
      cases hv : values (t.map toLower) with
      | ub => simp only [Out.ub_bind]
      | throw e => simp only [Out.throw_bind, reduceCtorEq]
      | ok vs =>
        simp only [Out.ok_bind, reduceCtorEq, iff_false]
        split
        · have hvo := values_ok _ _ (map_toLower_idem _) hv
          obtain ⟨out, rest, _, _, _, hh⟩ := conv_nopad_spec 5 8 (by omega) (vs.take (vs.length - 6))
            (fun v hv => hvo.1 v (List.mem_of_mem_take hv))
          rcases hh with ⟨_, _, hh⟩ | ⟨_, hh⟩ <;> rw [hh] <;> intro h <;> cases h
        · intro h; cases h
  constructor
  · intro hub
    cases hr : rfind 49 (s.map toLower) with
    | none =>
      rw [decode] at hub
      simp only [hr] at hub
      cases hub
    | some pos =>
      obtain ⟨h1, h2, h3⟩ := rfind_some hr
      have hlen : pos < s.length := by simpa using h3
      have hs : s = s.take pos ++ 49 :: s.drop (pos + 1) := by
        have hx : s[pos] = 49 := by
          have := congrArg (fun l => l[pos]?) h1
          rw [List.getElem?_append_right (by simp; omega)] at this
          simp only [List.length_map, List.length_take, Nat.min_eq_left (Nat.le_of_lt hlen), Nat.sub_self,
            List.getElem?_cons_zero, List.getElem?_map, List.getElem?_eq_getElem hlen, Option.map_some,
            Option.some.injEq] at this
          exact (toLower_sep _).1 this
        rw [← hx, ← List.drop_eq_getElem_cons hlen, List.take_append_drop]
      have ht : ∀ c ∈ s.drop (pos + 1), c ≠ 49 := by
        intro c hc heq
        apply h2 (toLower c)
        · rw [← List.map_drop]; exact List.mem_map_of_mem hc
        · rw [heq]; decide
      rw [hs, fwd _ _ ht] at hub
      obtain ⟨k1, k2, k3⟩ := hub
      obtain ⟨a, c, b, e, hc, ha⟩ := (values_ub_iff _).1 k3
      rw [e] at hs ht k2
      exact ⟨_, a, c, b, hs, ht, k1, k2, hc, ha⟩
  · rintro ⟨p, a, c, b, rfl, ht, hp, hl, hc, ha⟩
    rw [fwd p _ ht]
    exact ⟨hp, hl, (values_ub_iff _).2 ⟨a, c, b, rfl, hc, ha⟩⟩

/-- Both sides occur: a byte 200 in the data part, and the same byte in the prefix. -/
example : decode (ascii "a1q" ++ [200] ++ ascii "qqqq") = .ub ∧ decode ([200] ++ ascii "1qqqqqq") = .throw .invalidArgument := by
  decide +kernel

/-- **C06 (partial).** Missing: strings with a byte ≥ 128 after the separator, for
which the claim fails (`C06_bech32_decode_ub_witness`).  For all other strings
`decode` returns or throws. -/
theorem C06_bech32_defined_partial (s : Bytes) (h : ∀ c ∈ s, specAscii c) : (decode s).defined = true := by
  cases hr : rfind 49 (s.map toLower) with
  | none => unfold decode; simp [hr, Out.defined]
  | some pos =>
    obtain ⟨h1, h2, h3⟩ := rfind_some hr
    have hlen : pos < s.length := by simpa using h3
    have hs : s = s.take pos ++ 49 :: s.drop (pos + 1) := by
      have hx : s[pos] = 49 := by
        have := congrArg (fun l => l[pos]?) h1
        rw [List.getElem?_append_right (by simp; omega)] at this
        simp only [List.length_map, List.length_take, Nat.min_eq_left (Nat.le_of_lt hlen), Nat.sub_self,
          List.getElem?_cons_zero, List.getElem?_map, List.getElem?_eq_getElem hlen, Option.map_some,
          Option.some.injEq] at this
        exact (toLower_sep _).1 this
      rw [← hx, ← List.drop_eq_getElem_cons hlen, List.take_append_drop]
    have ht : ∀ c ∈ s.drop (pos + 1), c ≠ 49 := by
      intro c hc heq
      apply h2 (toLower c)
      · rw [← List.map_drop]; exact List.mem_map_of_mem hc
      · rw [heq]; decide
    rw [hs, decode_split _ _ ht]
    split
    · rfl
    · rcases values_ascii ((s.drop (pos + 1)).map toLower) (by
          intro c hc
          obtain ⟨x, hx, rfl⟩ := List.mem_map.1 hc
          exact toLower_ascii x (h x (List.mem_of_mem_drop hx))) with ⟨vs, hv⟩ | hv
      · rw [hv]
        simp only [Out.ok_bind]
        split
        · have hvo := values_ok _ _ (map_toLower_idem _) hv
          obtain ⟨out, rest, _, _, _, hh⟩ := conv_nopad_spec 5 8 (by omega) (vs.take (vs.length - 6))
            (fun v hv => hvo.1 v (List.mem_of_mem_take hv))
          rcases hh with ⟨_, _, hh⟩ | ⟨_, hh⟩ <;> rw [hh] <;> rfl
        · rfl
      · rw [hv]; rfl

example : ∀ c ∈ ascii "addr1qx", specAscii c := by unfold specAscii; decide +kernel

end Cardano.Bech32
