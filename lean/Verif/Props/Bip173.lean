import Verif.Spec.Bip173
import Verif.Props.Bech32

/-! # C61: the Bech32 functions implement BIP-173 -/

namespace Cardano.Bech32
open Bip173

theorem pack_xor_step (a b x y : Nat) (hx : x < 32) (hy : y < 32) :
    (a * 32 + x) ^^^ (b * 32 + y) = (a ^^^ b) * 32 + (x ^^^ y) := by
  have hxy : x ^^^ y < 2 ^ 5 := Nat.xor_lt_two_pow (by omega) (by omega)
  apply Nat.eq_of_testBit_eq
  intro j
  have e : ∀ p q : Nat, p * 32 + q = 2 ^ 5 * p + q := by intro p q; omega
  rw [Nat.testBit_xor, e, e, e, Nat.testBit_two_pow_mul_add _ (by omega), Nat.testBit_two_pow_mul_add _ (by omega),
    Nat.testBit_two_pow_mul_add _ hxy]
  split <;> simp [Nat.testBit_xor]

theorem gsel_spec : ∀ t : Fin 32, gsel t = pack 0 [gfMul 29 t, gfMul 22 t, gfMul 20 t, gfMul 21 t, gfMul 29 t, gfMul 18 t] ∧
    gfMul 29 t < 32 ∧ gfMul 22 t < 32 ∧ gfMul 20 t < 32 ∧ gfMul 21 t < 32 ∧ gfMul 18 t < 32 := by decide +kernel

theorem pack6 (a b c d e f : Nat) : pack 0 [a, b, c, d, e, f] = ((((a * 32 + b) * 32 + c) * 32 + d) * 32 + e) * 32 + f := by
  simp [pack]

theorem step_spec (a b c d e f v : Nat) (ha : a < 32) (hb : b < 32) (hc : c < 32) (hd : d < 32) (he : e < 32) (hf : f < 32)
    (hv : v < 32) : polymodStep (pack 0 [a, b, c, d, e, f]) v = pack 0 (remStep [a, b, c, d, e, f] v) ∧
      ∀ x ∈ remStep [a, b, c, d, e, f] v, x < 32 := by
  obtain ⟨g, g1, g2, g3, g4, g5⟩ := gsel_spec ⟨a, ha⟩
  simp only at g g1 g2 g3 g4 g5
  have htop : (pack 0 [a, b, c, d, e, f] >>> 25) % 256 = a := by
    rw [pack6, Nat.shiftRight_eq_div_pow]; omega
  have hlow : (pack 0 [a, b, c, d, e, f] &&& 0x1ffffff) <<< 5 ^^^ v = pack 0 [b, c, d, e, f, v] := by
    rw [show (0x1ffffff : Nat) = 2 ^ 25 - 1 by decide, Nat.and_two_pow_sub_one_eq_mod, Nat.shiftLeft_eq]
    have h1 : pack 0 [a, b, c, d, e, f] % 2 ^ 25 * 2 ^ 5 =
        ((((b * 32 + c) * 32 + d) * 32 + e) * 32 + f) * 32 + 0 := by rw [pack6]; omega
    rw [h1]
    have := pack_xor_step ((((b * 32 + c) * 32 + d) * 32 + e) * 32 + f) 0 0 v (by omega) hv
    rw [Nat.zero_mul, Nat.zero_add, Nat.xor_zero, Nat.zero_xor] at this
    rw [this, pack6]
  constructor
  · rw [polymodStep_eq, htop, hlow, g, pack6, pack6, remStep, pack6]
    rw [pack_xor_step _ _ _ _ hv g5, pack_xor_step _ _ _ _ hf g1, pack_xor_step _ _ _ _ he g4,
      pack_xor_step _ _ _ _ hd g3, pack_xor_step _ _ _ _ hc g2]
  · have hx : ∀ x y, x < 32 → y < 32 → x ^^^ y < 32 := fun x y h1 h2 => Nat.xor_lt_two_pow (n := 5) h1 h2
    intro x hx'
    simp only [remStep, List.mem_cons, List.not_mem_nil, or_false] at hx'
    rcases hx' with rfl | rfl | rfl | rfl | rfl | rfl
    · exact hx _ _ hb g1
    · exact hx _ _ hc g2
    · exact hx _ _ hd g3
    · exact hx _ _ he g4
    · exact hx _ _ hf g1
    · exact hx _ _ hv g5

theorem fold_spec (vs : List Nat) (hv : ∀ v ∈ vs, v < 32) : ∀ r : List Nat, r.length = 6 → (∀ x ∈ r, x < 32) →
    vs.foldl polymodStep (pack 0 r) = pack 0 (vs.foldl remStep r) ∧ (vs.foldl remStep r).length = 6 ∧
      ∀ x ∈ vs.foldl remStep r, x < 32 := by
  induction vs with
  | nil => intro r h1 h2; exact ⟨rfl, h1, h2⟩
  | cons v vs ih =>
    intro r h1 h2
    match r, h1 with
    | [a, b, c, d, e, f], _ =>
      obtain ⟨s1, s2⟩ := step_spec a b c d e f v (h2 a (by simp)) (h2 b (by simp)) (h2 c (by simp)) (h2 d (by simp))
        (h2 e (by simp)) (h2 f (by simp)) (hv v (by simp))
      simp only [List.foldl_cons]
      rw [s1]
      exact ih (fun x hx => hv x (by simp [hx])) _ rfl s2

/-- The checksum function is the remainder of BIP-173. -/
theorem polymod_remainder (vs : List Nat) (hv : ∀ v ∈ vs, v < 32) :
    polymod vs = pack 0 (remainder vs) ∧ (remainder vs).length = 6 ∧ ∀ x ∈ remainder vs, x < 32 := by
  have := fold_spec vs hv [0, 0, 0, 0, 0, 1] rfl (by decide)
  exact this

theorem expand_eq (hrp : Bytes) : expandHrp hrp = expand hrp := by
  unfold expandHrp expand
  congr 1
  · congr 1
    apply List.map_congr_left
    intro c _
    rw [Nat.shiftRight_eq_div_pow]
  · apply List.map_congr_left
    intro c _
    rw [show (0x1f : Nat) = 2 ^ 5 - 1 by decide, Nat.and_two_pow_sub_one_eq_mod]

theorem verify_spec (hrp : Bytes) (vs : List Nat) (hv : ∀ v ∈ vs, v < 32) :
    verifyChecksum hrp vs = true ↔ remainder (expand hrp ++ vs) = [0, 0, 0, 0, 0, 1] := by
  have hall : ∀ v ∈ expandHrp hrp ++ vs, v < 32 := by
    intro v h
    rcases List.mem_append.1 h with h | h
    · exact expandHrp_lt hrp v h
    · exact hv v h
  obtain ⟨h1, h2, h3⟩ := polymod_remainder _ hall
  unfold verifyChecksum
  rw [h1, beq_iff_eq, ← expand_eq]
  constructor
  · intro h
    exact (pack_inj _ [0, 0, 0, 0, 0, 1] 0 0 (by rw [h2]; rfl) h3 (by decide) (by rw [h]; rfl)).2
  · intro h; rw [h]; rfl

theorem toBits_spec (w v : Nat) : toBits w v = (List.range w).map fun i => decide (v / 2 ^ (w - 1 - i) % 2 = 1) := by
  induction w with
  | zero => rfl
  | succ w ih =>
    rw [toBits, List.range_succ_eq_map, List.map_cons, List.map_map, ih]
    congr 1
    · rw [Nat.testBit_eq_decide_div_mod_eq]; simp
    · apply List.map_congr_left
      intro i _
      simp only [Function.comp_apply]
      rw [show w + 1 - 1 - i.succ = w - 1 - i by omega]

theorem groupBits_spec (w : Nat) (vs : List Nat) : groupBits w vs = bits w vs := by
  induction vs with
  | nil => rfl
  | cons v vs ih => rw [groupBits_cons, ih, toBits_spec]; rfl

theorem chars_spec : ∀ (vs : List Nat), (∀ v ∈ vs, v < 32) → chars vs = .ok (vs.map char) := by
  intro vs
  induction vs with
  | nil => intro _; rfl
  | cons v vs ih =>
    intro h
    have hf : ∀ v : Fin 32, charset[v.val]? = some (char v.val) := by decide +kernel
    have := hf ⟨v, h v (by simp)⟩
    simp only at this
    simp [chars, charsetAt, this, ih (fun x hx => h x (by simp [hx]))]

/-- **C61.** `decode` accepts exactly the BIP-173 strings (see `Bip173.IsString`), and returns
the human-readable part and the payload of the standard; `encode` produces the BIP-173
string of its arguments. -/
theorem C61_bip173 (s hrp data : Bytes) :
    (decode s = .ok (hrp, data) ↔ IsString s hrp data) ∧
    (encode hrp data = .ok s → hrp ≠ [] → IsString s hrp data ∧ s.map toLower = s) := by
  have D : decode s = .ok (hrp, data) → IsString s hrp data := by
    intro h
    have hr : ∃ pos, rfind 49 (s.map toLower) = some pos := by
      unfold decode at h
      cases hr : rfind 49 (s.map toLower) with
      | none => simp [hr] at h
      | some pos => exact ⟨pos, rfl⟩
    obtain ⟨pos, hr⟩ := hr
    obtain ⟨h1, h2, h3⟩ := rfind_some hr
    generalize hp : (s.map toLower).take pos = p at h1
    generalize ht : (s.map toLower).drop (pos + 1) = t at h1 h2
    have hll := map_toLower_idem s
    have hdec : decode (s.map toLower) = .ok (hrp, data) := by
      rw [← h]; unfold decode; simp only [hll, List.length_map]
    have hpl : p.map toLower = p := by
      rw [← hp, ← List.map_take]; exact map_toLower_idem _
    have htl : t.map toLower = t := by
      rw [← ht, ← List.map_drop]; exact map_toLower_idem _
    rw [h1, decode_split p t h2] at hdec
    split at hdec
    · cases hdec
    rename_i hc
    simp only [not_or] at hc
    rw [htl, hpl, Out.bind_eq_ok] at hdec
    obtain ⟨vals, hv, hdec⟩ := hdec
    obtain ⟨v1, v2, v3⟩ := values_ok t vals htl hv
    split at hdec
    · rename_i hver
      rw [Out.bind_eq_ok] at hdec
      obtain ⟨packed, hpk, hdec⟩ := hdec
      simp at hdec
      obtain ⟨rfl, rfl⟩ := hdec
      have hspl : vals.take (vals.length - 6) ++ vals.drop (vals.length - 6) = vals := List.take_append_drop _ _
      have htk : ∀ v ∈ vals.take (vals.length - 6), v < 2 ^ 5 := fun v hv => v1 v (List.mem_of_mem_take hv)
      obtain ⟨out, rest, e1, e2, e3, e4⟩ := conv_nopad_spec 5 8 (by omega) _ htk
      rcases e4 with ⟨e5, e6, e7⟩ | e4
      · rw [e7] at hpk; injection hpk with hpk; subst hpk
        refine ⟨vals.take (vals.length - 6), vals.drop (vals.length - 6), rest.length, hc.1, by simp; omega,
          by rw [hspl]; exact v1, ?_, ?_, e5, ?_⟩
        · rw [hspl, h1]
          have := chars_spec vals v1
          rw [v2] at this
          injection this with this
          rw [this]
          simp [ascii]
        · rw [List.append_assoc, hspl]
          exact (verify_spec p vals v1).1 hver
        · rw [map_toNat_ofNat _ e3, ← groupBits_spec, ← groupBits_spec, ← e6]
          exact e1
      · rw [e4.2] at hpk; cases hpk
    · cases hdec
  have E : IsString s hrp data → decode s = .ok (hrp, data) := by
    rintro ⟨vals, check, pad, h1, h2, h3, h4, h5, h6, h7⟩
    have hlow : decode s = decode (s.map toLower) := by
      unfold decode; simp only [map_toLower_idem, List.length_map]
    have hcs : chars (vals ++ check) = .ok ((vals ++ check).map char) := chars_spec _ h3
    obtain ⟨cs, c1, c2, c3, c4, c5⟩ := chars_ok _ h3
    rw [hcs] at c1; injection c1 with c1; subst c1
    have hsep : s.map toLower = hrp ++ 49 :: (vals ++ check).map char := by rw [h4]; simp [ascii]
    have hhl : hrp.map toLower = hrp := by
      have := map_toLower_idem s
      rw [hsep, List.map_append] at this
      exact (List.append_inj this (by simp)).1
    rw [hlow, hsep, decode_split hrp _ c4, if_neg (by simp [h1, h2]), c5, c3, hhl]
    have hver : verifyChecksum hrp (vals ++ check) = true := by
      rw [verify_spec _ _ h3, ← List.append_assoc]; exact h5
    have hvals : ∀ v ∈ vals, v < 2 ^ 5 := fun v hv => h3 v (by simp [hv])
    have hd : ∀ v ∈ data.map UInt8.toNat, v < 2 ^ 8 := by
      intro v hv
      obtain ⟨b, _, rfl⟩ := List.mem_map.1 hv
      exact b.toNat_lt
    obtain ⟨out, rest, e1, e2, e3, e4⟩ := conv_nopad_spec 5 8 (by omega) vals hvals
    rw [groupBits_spec, h7, ← groupBits_spec] at e1
    have hlen := congrArg List.length e1
    simp at hlen
    have hsp := List.append_inj e1 (by simp; omega)
    have hdd : data.map UInt8.toNat = out := groupBits_inj hd e3 (by simp; omega) hsp.1
    have hconv : convertbits vals 5 8 false = .ok (data.map UInt8.toNat) := by
      rcases e4 with e4 | e4
      · rw [e4.2.2, hdd]
      · exact absurd ⟨by rw [← hsp.2]; simpa using h6, by rw [← hsp.2]; simp⟩ e4.1
    simp only [Out.ok_bind, hver, if_true, take_drop_len vals check 6 h2, hconv, map_ofNat_toNat, Out.pure_eq]
  refine ⟨⟨D, E⟩, ?_⟩
  intro henc hne
  by_cases hup : ∃ c ∈ hrp, specUpper c
  · rw [(C03_bech32_roundtrip hrp data).2 hup] at henc; cases henc
  · obtain ⟨s', e, d⟩ := (C03_bech32_roundtrip hrp data).1 hne (by intro c hc hu; exact hup ⟨c, hc, hu⟩)
    rw [henc] at e; injection e with e; subst e
    refine ⟨D d, ?_⟩
    have := C04_bech32_canonical s hrp data d
    rw [henc] at this; injection this with this
    exact this.symm

example : encode (ascii "a") [] = .ok (ascii "a12uel5l") := by decide +kernel

end Cardano.Bech32
