import Verif.Lemmas.Bech32Cap
import Verif.Props.Bech32
import Verif.Props.Address

/-! # Substitution errors in Bech32 strings (C83) -/

namespace Cardano.Bech32

/-- Specification: the number of positions at which two texts of the same length differ by more
than letter case. -/
def diffs (s t : Bytes) : Nat := (s.zip t).countP (fun x => toLower x.1 ≠ toLower x.2)

theorem weight_append (a b : List Nat) : weight (a ++ b) = weight a + weight b := by
  unfold weight; exact List.countP_append

theorem weight_reverse (a : List Nat) : weight a.reverse = weight a := by
  unfold weight; exact List.countP_reverse

theorem zipWith_append_xor : ∀ (a b c d : List Nat), a.length = b.length →
    List.zipWith (· ^^^ ·) (a ++ c) (b ++ d) = List.zipWith (· ^^^ ·) a b ++ List.zipWith (· ^^^ ·) c d := by
  intro a
  induction a with
  | nil => intro b c d h; cases b with
    | nil => rfl
    | cons => simp at h
  | cons x a ih =>
    intro b c d h
    cases b with
    | nil => simp at h
    | cons y b => simp [ih b c d (by simpa using h)]

theorem weight_zero_eq : ∀ (a b : List Nat), a.length = b.length → weight (List.zipWith (· ^^^ ·) a b) = 0 → a = b := by
  intro a
  induction a with
  | nil => intro b h _; cases b with
    | nil => rfl
    | cons => simp at h
  | cons x a ih =>
    intro b h hw
    cases b with
    | nil => simp at h
    | cons y b =>
      rw [List.zipWith_cons_cons] at hw
      unfold weight at hw
      rw [List.countP_cons] at hw
      have hxy : x ^^^ y = 0 := by
        by_cases h0 : x ^^^ y = 0
        · exact h0
        · simp [h0] at hw
      rw [xor_eq_zero hxy, ih b (by simpa using h) (by unfold weight; omega)]

/-- A function of the characters differs in at most as many places as the characters. -/
theorem weight_map (f : UInt8 → Nat) : ∀ (p q : Bytes), p.length = q.length →
    weight (List.zipWith (· ^^^ ·) ((p.map toLower).map f) ((q.map toLower).map f)) ≤ diffs p q := by
  intro p
  induction p with
  | nil => intro q _; simp [weight]
  | cons x p ih =>
    intro q h
    cases q with
    | nil => simp at h
    | cons y q =>
      have := ih q (by simpa using h)
      unfold weight diffs at *
      simp only [List.map_cons, List.zipWith_cons_cons, List.zip_cons_cons, List.countP_cons]
      by_cases hxy : toLower x = toLower y
      · simp only [hxy, Nat.xor_self, ne_eq, not_true_eq_false, decide_false, Bool.false_eq_true, if_false, Nat.add_zero]
        exact this
      · simp only [ne_eq, hxy, not_false_eq_true, decide_true, if_true]
        split
        · exact Nat.add_le_add_right this 1
        · exact Nat.le_succ_of_le this

theorem weight_values : ∀ (d e : Bytes) (v w : List Nat), d.length = e.length → values (d.map toLower) = .ok v →
    values (e.map toLower) = .ok w → weight (List.zipWith (· ^^^ ·) v w) ≤ diffs d e := by
  intro d
  induction d with
  | nil =>
    intro e v w _ hv _
    have : v = [] := (Out.ok.inj hv).symm
    subst this
    simp [weight]
  | cons x d ih =>
    intro e v w h hv hw
    cases e with
    | nil => simp at h
    | cons y e =>
      have step : ∀ (c : UInt8) (cs : Bytes) (vs : List Nat), values (c :: cs) = .ok vs →
          ∃ rev us, charsetRev[c.toNat]? = some rev ∧ values cs = .ok us ∧ vs = rev.toNat :: us := by
        intro c cs vs h
        rw [values] at h
        split at h
        · cases h
        · rename_i rev hrev
          split at h
          · cases h
          · cases hcs : values cs with
            | ok us => rw [hcs] at h; exact ⟨rev, us, hrev, rfl, (Out.ok.inj h).symm⟩
            | throw e => rw [hcs] at h; cases h
            | ub => rw [hcs] at h; cases h
      rw [List.map_cons] at hv hw
      obtain ⟨r1, v', h1, h2, rfl⟩ := step _ _ _ hv
      obtain ⟨r2, w', h3, h4, rfl⟩ := step _ _ _ hw
      have := ih e v' w' (by simpa using h) h2 h4
      unfold weight diffs at *
      simp only [List.zipWith_cons_cons, List.zip_cons_cons, List.countP_cons]
      by_cases hxy : toLower x = toLower y
      · rw [hxy, h3] at h1
        cases Option.some.inj h1
        simp only [hxy, Nat.xor_self, ne_eq, not_true_eq_false, decide_false, Bool.false_eq_true, if_false, Nat.add_zero]
        exact this
      · simp only [ne_eq, hxy, not_false_eq_true, decide_true, if_true]
        split
        · exact Nat.add_le_add_right this 1
        · exact Nat.le_succ_of_le this

theorem diffs_zero : ∀ (s t : Bytes), s.length = t.length → sameUpToCase s t → diffs s t = 0 := by
  intro s
  induction s with
  | nil => intro t _ _; simp [diffs]
  | cons x s ih =>
    intro t h hs
    cases t with
    | nil => simp at h
    | cons y t =>
      unfold sameUpToCase at hs
      simp only [List.map_cons, List.cons.injEq] at hs
      have := ih t (by simpa using h) hs.2
      unfold diffs at *
      simp only [List.zip_cons_cons, List.countP_cons, hs.1, ne_eq, not_true_eq_false, decide_false, Bool.false_eq_true, if_false, Nat.add_zero]
      exact this

theorem expand_recover : ∀ c : UInt8, (c.toNat >>> 5) * 32 + (c.toNat &&& 0x1f) = c.toNat :=
  forall_byte (p := fun c => (c.toNat >>> 5) * 32 + (c.toNat &&& 0x1f) = c.toNat) (by decide +kernel)

theorem expandHrp_inj (p q : Bytes) (hl : p.length = q.length) (h : expandHrp p = expandHrp q) : p = q := by
  unfold expandHrp at h
  obtain ⟨h0, h2⟩ := List.append_inj h (by simp [hl])
  obtain ⟨h1, -⟩ := List.append_inj h0 (by simp [hl])
  clear h h0
  induction p generalizing q with
  | nil => cases q with
    | nil => rfl
    | cons => simp at hl
  | cons x p ih =>
    cases q with
    | nil => simp at hl
    | cons y q =>
      simp only [List.map_cons, List.cons.injEq] at h1 h2
      have e1 := expand_recover x
      have e2 := expand_recover y
      rw [h1.1, h2.1, e2] at e1
      rw [UInt8.toNat_inj.mp e1.symm, ih q (by simpa using hl) h2.2 h1.2]

/-- **C83.** Replace characters of a valid string by other ones (ASCII, the separator stays where
it is).  A changed data character counts once, a changed character of the human-readable part
twice; letter case does not count.  With at most 3 changes the result is rejected if the string
has at most 1023 symbols (every Cardano address), with at most 4 if it has at most 89 (the
guarantee of BIP-173). -/
theorem C83_substitutions_detected (p p' d d' : Bytes) (v : Bytes × Bytes)
    (hp : p.length = p'.length) (hd : d.length = d'.length) (hsep : ∀ c ∈ d ++ d', c ≠ 49) (hasc : ∀ c ∈ d', specAscii c)
    (hpos : 0 < 2 * diffs p p' + diffs d d')
    (hw : (2 * diffs p p' + diffs d d' ≤ 3 ∧ 2 * p.length + 1 + d.length ≤ 1023) ∨
          (2 * diffs p p' + diffs d d' ≤ 4 ∧ 2 * p.length + 1 + d.length ≤ 89))
    (hok : decode (p ++ [49] ++ d) = .ok v) : decode (p' ++ [49] ++ d') = .throw .invalidArgument := by
  have e1 : p ++ [49] ++ d = p ++ 49 :: d := by simp
  have e2 : p' ++ [49] ++ d' = p' ++ 49 :: d' := by simp
  rw [e1, decode_split _ _ (fun c hc => hsep c (List.mem_append_left _ hc))] at hok
  rw [e2, decode_split _ _ (fun c hc => hsep c (List.mem_append_right _ hc))]
  split at hok
  · cases hok
  rename_i hc
  have hc' : ¬ (p' = [] ∨ d'.length < 6) := by
    intro h
    apply hc
    rcases h with h | h
    · left
      rw [h] at hp
      exact List.length_eq_zero_iff.mp hp
    · right; omega
  rw [if_neg hc']
  rw [Out.bind_eq_ok] at hok
  obtain ⟨vals, hv, hok⟩ := hok
  have hver : verifyChecksum (p.map toLower) vals = true := by
    by_contra hn
    simp [hn] at hok
  have hlow := map_toLower_idem
  have hV := values_ok _ _ (hlow d) hv
  rcases values_ascii (d'.map toLower) (by
      intro c hc
      obtain ⟨x, hx, rfl⟩ := List.mem_map.1 hc
      exact toLower_ascii x (hasc x hx)) with ⟨vals', hv'⟩ | hbad
  · have hV' := values_ok _ _ (hlow d') hv'
    rw [hv', Out.ok_bind, if_neg]
    intro hver'
    unfold verifyChecksum at hver hver'
    rw [beq_iff_eq, polymod_eq] at hver hver'
    have lp : (expandHrp (p.map toLower)).length = (expandHrp (p'.map toLower)).length := by simp [expandHrp, hp]
    have lv : vals.length = vals'.length := by rw [hV.2.2, hV'.2.2]; simp [hd]
    have hx : ∀ x ∈ expandHrp (p.map toLower) ++ vals, x < 32 := by
      intro x h
      rcases List.mem_append.1 h with h | h
      exacts [expandHrp_lt _ x h, hV.1 x h]
    have hx' : ∀ x ∈ expandHrp (p'.map toLower) ++ vals', x < 32 := by
      intro x h
      rcases List.mem_append.1 h with h | h
      exacts [expandHrp_lt _ x h, hV'.1 x h]
    have hxor := pm_xor (a := 1) (b := 1) (by decide) (by decide) (by simp [lp, lv]) hx hx'
    rw [hver, hver', Nat.xor_self] at hxor
    generalize he : List.zipWith (· ^^^ ·) (expandHrp (p.map toLower) ++ vals) (expandHrp (p'.map toLower) ++ vals') = e at hxor
    have hel : ∀ x ∈ e.reverse, x < 32 := by
      intro x hxm
      rw [List.mem_reverse, ← he] at hxm
      obtain ⟨i, hi, rfl⟩ := List.mem_iff_getElem.mp hxm
      rw [List.getElem_zipWith]
      exact Nat.xor_lt_two_pow (n := 5) (hx _ (List.getElem_mem _)) (hx' _ (List.getElem_mem _))
    have hcomb : comb 0 e.reverse = 0 := by rw [← pm_comb _ hel, List.reverse_reverse]; exact hxor
    have hlen : e.length = 2 * p.length + 1 + d.length := by
      rw [← he, List.length_zipWith]
      simp only [List.length_append, ← lp, ← lv, Nat.min_self, hV.2.2]
      simp [expandHrp]; omega
    have hwt : weight e.reverse ≤ 2 * diffs p p' + diffs d d' := by
      rw [weight_reverse, ← he, zipWith_append_xor _ _ _ _ lp, weight_append]
      have h1 := weight_values d d' vals vals' hd hv hv'
      have h2 := weight_map (fun c => c.toNat >>> 5) p p' hp
      have h3 := weight_map (fun c => c.toNat &&& 0x1f) p p' hp
      unfold expandHrp
      rw [zipWith_append_xor _ _ _ _ (by simp [hp]), zipWith_append_xor _ _ _ _ (by simp [hp]), weight_append, weight_append]
      have h4 : weight (List.zipWith (· ^^^ ·) [0] [0]) = 0 := by decide
      rw [h4]
      omega
    have h0 := weight_bound e.reverse hel hcomb (by rw [List.length_reverse, hlen]; omega)
    rw [weight_reverse, ← he] at h0
    have heq := weight_zero_eq _ _ (by simp [lp, lv]) h0
    obtain ⟨q1, q2⟩ := List.append_inj heq lp
    have s1 : sameUpToCase p p' := expandHrp_inj _ _ (by simp [hp]) q1
    have s2 : sameUpToCase d d' := by
      have t1 := hV.2.1
      rw [q2, hV'.2.1] at t1
      exact (Out.ok.inj t1).symm
    rw [diffs_zero p p' hp s1, diffs_zero d d' hd s2] at hpos
    omega
  · rw [hbad]; rfl

/-- The hypotheses are met by a valid string with three scattered wrong characters. -/
example : decode (ascii "abcdef" ++ [49] ++ ascii "qpzry9x8gf2tvdw0s3jn54khce6mua7lmqqqxw") =
      .ok (ascii "abcdef", [0x00, 0x44, 0x32, 0x14, 0xc7, 0x42, 0x54, 0xb6, 0x35, 0xcf, 0x84, 0x65, 0x3a, 0x56, 0xd7, 0xc6, 0x75, 0xbe, 0x77, 0xdf]) ∧
    diffs (ascii "qpzry9x8gf2tvdw0s3jn54khce6mua7lmqqqxw") (ascii "ppzry9x8gf2tvdw0s3jn54khce6mua7lmqqpxz") = 3 ∧
    decode (ascii "abcdef" ++ [49] ++ ascii "ppzry9x8gf2tvdw0s3jn54khce6mua7lmqqpxz") = .throw .invalidArgument := by
  decide +kernel

end Cardano.Bech32

namespace Cardano.Address

open Bech32

/-- **C83** for addresses: a text of at most 500 characters accepted as an address of any class is
no longer accepted by any class after one to three wrong characters behind the separator. -/
theorem C83_address_typos (p d d' : Bytes) (hacc : (Base.fromBech32 (p ++ [49] ++ d)).isOk ∨ (enterpriseFromBech32 (p ++ [49] ++ d)).isOk ∨
      (rewardsFromBech32 (p ++ [49] ++ d)).isOk)
    (hlen : (p ++ [49] ++ d).length ≤ 500) (hd : d.length = d'.length) (hsep : ∀ c ∈ d ++ d', c ≠ 49)
    (hasc : ∀ c ∈ d', specAscii c) (h1 : 1 ≤ diffs d d') (h3 : diffs d d' ≤ 3) :
    Base.fromBech32 (p ++ [49] ++ d') = .throw .invalidArgument ∧
    enterpriseFromBech32 (p ++ [49] ++ d') = .throw .invalidArgument ∧
    rewardsFromBech32 (p ++ [49] ++ d') = .throw .invalidArgument := by
  have hz : diffs p p = 0 := diffs_zero p p rfl rfl
  obtain ⟨v, hv⟩ : ∃ v, Bech32.decode (p ++ [49] ++ d) = .ok v := by
    unfold enterpriseFromBech32 rewardsFromBech32 Base.fromBech32 Single.fromBech32 at hacc
    cases hx : Bech32.decode (p ++ [49] ++ d) with
    | ok v => exact ⟨v, rfl⟩
    | throw e => rw [hx] at hacc; simp [Out.isOk] at hacc
    | ub => rw [hx] at hacc; simp [Out.isOk] at hacc
  simp only [List.length_append, List.length_cons, List.length_nil] at hlen
  have := C83_substitutions_detected p p d d' v rfl hd hsep hasc (by omega) (Or.inl ⟨by omega, by omega⟩) hv
  unfold enterpriseFromBech32 rewardsFromBech32 Base.fromBech32 Single.fromBech32
  rw [this]
  exact ⟨rfl, rfl, rfl⟩

end Cardano.Address
