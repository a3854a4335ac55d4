import Verif.Lemmas.Bech32Bits
import Verif.Lemmas.Bech32Poly
import Verif.Spec.Bech32

namespace Cardano.Bech32

theorem isUpper_iff : ∀ c : UInt8, isUpper c = true ↔ specUpper c := forall_byte (by decide +kernel)

theorem toLower_of_not_upper : ∀ c : UInt8, ¬ specUpper c → toLower c = c := forall_byte (by decide +kernel)
theorem toLower_not_upper : ∀ c : UInt8, ¬ specUpper (toLower c) := forall_byte (by decide +kernel)
theorem toLower_ascii : ∀ c : UInt8, specAscii c → (toLower c).toNat < 128 := by
  intro c; unfold specAscii; revert c; exact forall_byte (by decide +kernel)
theorem toLower_sep : ∀ c : UInt8, toLower c = 49 ↔ c = 49 := forall_byte (by decide +kernel)

theorem charset_facts : ∀ v : Fin 32, ∃ c, charset[v.val]? = some c ∧ charsetRev[c.toNat]? = some (v.val : Int) ∧
    c ≠ 49 ∧ toLower c = c := by
  have : ∀ v : Fin 32, (charset[v.val]?).any (fun c => charsetRev[c.toNat]? == some (v.val : Int) && c != 49 && toLower c == c) = true := by
    decide +kernel
  intro v
  have h := this v
  cases hc : charset[v.val]? with
  | none => simp [hc] at h
  | some c =>
    simp [hc] at h
    exact ⟨c, rfl, h.1.1, h.1.2, h.2⟩

/-- inverse table: a (lower-case) character with a value is the charset's character of that value -/
theorem rev_facts : ∀ c : UInt8, toLower c = c → ∀ r, charsetRev[c.toNat]? = some r → r ≠ -1 →
    r.toNat < 32 ∧ charset[r.toNat]? = some c := by
  have : ∀ c : UInt8, toLower c = c → (charsetRev[c.toNat]?).all (fun r => r == -1 || (decide (r.toNat < 32) && charset[r.toNat]? == some c)) = true :=
    forall_byte (by decide +kernel)
  intro c hc r hr hn
  have h := this c hc
  rw [hr] at h
  simp [hn] at h
  exact ⟨by omega, h.2⟩

theorem rev_ascii : ∀ c : UInt8, specAscii c → (charsetRev[c.toNat]?).isSome := by
  intro c; unfold specAscii; revert c
  exact forall_byte (by decide +kernel)

theorem values_nonascii (c : UInt8) (h : ¬ specAscii c) : charsetRev[c.toNat]? = none := by
  unfold specAscii at h
  apply List.getElem?_eq_none
  show charsetRev.length ≤ _
  have : charsetRev.length = 128 := by decide +kernel
  omega

theorem chars_ok (vs : List Nat) (hv : ∀ v ∈ vs, v < 32) : ∃ cs, chars vs = .ok cs ∧ cs.length = vs.length ∧
    values cs = .ok vs ∧ (∀ c ∈ cs, c ≠ 49) ∧ cs.map toLower = cs := by
  induction vs with
  | nil => exact ⟨[], rfl, rfl, rfl, by simp, rfl⟩
  | cons v vs ih =>
    obtain ⟨cs, h1, h2, h3, h4, h5⟩ := ih (fun x hx => hv x (by simp [hx]))
    obtain ⟨c, g1, g2, g3, g4⟩ := charset_facts ⟨v, hv v (by simp)⟩
    simp only at g1 g2
    refine ⟨c :: cs, ?_, by simp [h2], ?_, ?_, ?_⟩
    · simp [chars, charsetAt, g1, h1]
    · simp [values, g2, h3, Out.bind]
    · intro x hx
      rcases List.mem_cons.1 hx with rfl | hx
      · exact g3
      · exact h4 x hx
    · simp [g4, h5]

theorem values_ok (cs : Bytes) (vs : List Nat) (hl : cs.map toLower = cs) (h : values cs = .ok vs) :
    (∀ v ∈ vs, v < 32) ∧ chars vs = .ok cs ∧ vs.length = cs.length := by
  induction cs generalizing vs with
  | nil => simp [values] at h; subst h; exact ⟨by simp, rfl, rfl⟩
  | cons c cs ih =>
    simp only [List.map_cons, List.cons.injEq] at hl
    rw [values] at h
    cases hr : charsetRev[c.toNat]? with
    | none => simp [hr] at h
    | some r =>
      rw [hr] at h
      simp only at h
      by_cases hn : r = -1
      · simp [hn] at h
      · rw [if_neg hn] at h
        cases hvs : values cs with
        | throw e => simp [hvs, Out.bind] at h
        | ub => simp [hvs, Out.bind] at h
        | ok ws =>
          simp [hvs, Out.bind] at h
          subst h
          obtain ⟨i1, i2, i3⟩ := ih ws hl.2 hvs
          obtain ⟨r1, r2⟩ := rev_facts c hl.1 r hr hn
          refine ⟨?_, ?_, by simp [i3]⟩
          · intro v hv
            rcases List.mem_cons.1 hv with rfl | hv
            · exact r1
            · exact i1 v hv
          · simp [chars, charsetAt, r2, i2]

theorem values_append (x y : Bytes) :
    values (x ++ y) = (values x).bind (fun vx => (values y).bind (fun vy => .ok (vx ++ vy))) := by
  induction x with
  | nil => simp [values, Out.bind]; cases values y <;> rfl
  | cons c x ih =>
    simp only [List.cons_append, values]
    cases hr : charsetRev[c.toNat]? with
    | none => rfl
    | some r =>
      simp only
      by_cases hn : r = -1
      · simp [hn, Out.bind]
      · rw [if_neg hn, if_neg hn, ih]
        cases values x <;> cases values y <;> rfl

theorem map_toLower_idem (x : Bytes) : (x.map toLower).map toLower = x.map toLower := by
  rw [List.map_map]; apply List.map_congr_left
  intro c _; exact toLower_of_not_upper _ (toLower_not_upper c)

/-- on ASCII characters the data loop returns or throws -/
theorem values_ascii (cs : Bytes) (h : ∀ c ∈ cs, specAscii c) :
    (∃ vs, values cs = .ok vs) ∨ values cs = .throw .invalidArgument := by
  induction cs with
  | nil => exact .inl ⟨[], rfl⟩
  | cons c cs ih =>
    have hs := rev_ascii c (h c (by simp))
    obtain ⟨r, hr⟩ := Option.isSome_iff_exists.1 hs
    simp only [values, hr]
    by_cases hn : r = -1
    · right; simp [hn]
    · rw [if_neg hn]
      rcases ih (fun x hx => h x (by simp [hx])) with ⟨vs, hv⟩ | hv
      · left; exact ⟨r.toNat :: vs, by simp [hv, Out.bind]⟩
      · right; simp [hv, Out.bind]

theorem rfind_none {ch : UInt8} {s : Bytes} : rfind ch s = none ↔ ∀ c ∈ s, c ≠ ch := by
  induction s with
  | nil => simp [rfind]
  | cons c s ih =>
    rw [rfind]
    cases h : rfind ch s with
    | some i =>
      have : ¬ ∀ c ∈ s, c ≠ ch := by rw [← ih, h]; simp
      simp only [reduceCtorEq, false_iff]
      intro hall
      exact this (fun x hx => hall x (by simp [hx]))
    | none =>
      have hall := ih.1 h
      by_cases hc : c = ch
      · simp [hc]
      · simp [hc]; exact hall

theorem rfind_append {ch : UInt8} (p t : Bytes) (ht : ∀ c ∈ t, c ≠ ch) :
    rfind ch (p ++ ch :: t) = some p.length := by
  induction p with
  | nil => simp [rfind, rfind_none.2 ht]
  | cons x p ih => simp [rfind, ih]

theorem rfind_some {ch : UInt8} {s : Bytes} {i : Nat} (h : rfind ch s = some i) :
    s = s.take i ++ ch :: s.drop (i + 1) ∧ (∀ c ∈ s.drop (i + 1), c ≠ ch) ∧ i < s.length := by
  induction s generalizing i with
  | nil => simp [rfind] at h
  | cons c s ih =>
    rw [rfind] at h
    cases hs : rfind ch s with
    | some j =>
      rw [hs] at h; simp at h; subst h
      obtain ⟨h1, h2, h3⟩ := ih hs
      refine ⟨?_, by simpa using h2, by simp; omega⟩
      simp only [List.take_succ_cons, List.drop_succ_cons, List.cons_append]
      rw [← h1]
    | none =>
      rw [hs] at h
      by_cases hc : c = ch
      · simp [hc] at h; subst h
        refine ⟨by simp [hc], ?_, by simp⟩
        simpa using rfind_none.1 hs
      · simp [hc] at h

/-- `decode` on a string split at its last separator -/
theorem decode_split (p t : Bytes) (ht : ∀ c ∈ t, c ≠ 49) :
    decode (p ++ 49 :: t) =
      if p = [] ∨ t.length < 6 then .throw .invalidArgument
      else (do
        let vals ← values (t.map toLower)
        if verifyChecksum (p.map toLower) vals then
          let packed ← convertbits (vals.take (vals.length - 6)) 5 8 false
          pure (p.map toLower, packed.map UInt8.ofNat)
        else .throw .invalidArgument) := by
  have hmap : (p ++ 49 :: t).map toLower = p.map toLower ++ 49 :: t.map toLower := by
    simp [(toLower_sep 49).2]
  have hr : rfind 49 ((p ++ 49 :: t).map toLower) = some p.length := by
    rw [hmap, rfind_append]
    · simp
    · intro c hc
      obtain ⟨x, hx, rfl⟩ := List.mem_map.1 hc
      rw [Ne, toLower_sep]; exact ht x hx
  unfold decode
  simp only [hr]
  have hcond : (p.length = 0 ∨ p.length + 7 > (p ++ 49 :: t).length) ↔ (p = [] ∨ t.length < 6) := by
    simp only [List.length_append, List.length_cons, List.length_eq_zero_iff]
    constructor <;> (rintro (h | h); exact .inl h; exact .inr (by omega))
  simp only [hcond]
  have hlen : (p.map toLower).length = p.length := by simp
  have htake : ((p ++ 49 :: t).map toLower).take p.length = p.map toLower := by
    rw [hmap, ← hlen, List.take_left]
  have hdrop : ((p ++ 49 :: t).map toLower).drop (p.length + 1) = t.map toLower := by
    rw [hmap, ← hlen, List.drop_append]; simp
  rw [htake, hdrop]

theorem take_drop_len {α} (l m : List α) (n : Nat) (h : m.length = n) :
    (l ++ m).take ((l ++ m).length - n) = l := by
  subst h; simp

theorem map_ofNat_toNat (l : Bytes) : (l.map UInt8.toNat).map UInt8.ofNat = l := by
  induction l with
  | nil => rfl
  | cons x l ih => simp at ih; simp [ih]

theorem map_toNat_ofNat (l : List Nat) (h : ∀ v ∈ l, v < 2 ^ 8) : (l.map UInt8.ofNat).map UInt8.toNat = l := by
  induction l with
  | nil => rfl
  | cons x l ih =>
    have hx := h x (by simp)
    simp only [List.map_cons, ih (fun v hv => h v (by simp [hv])), UInt8.toNat_ofNat']
    rw [Nat.mod_eq_of_lt (by simpa using hx)]

theorem chars_append_ok {a b : List Nat} {s : Bytes} (h : chars a = .ok s) {t} (h2 : chars b = .ok t) :
    chars (a ++ b) = .ok (s ++ t) := by
  induction a generalizing s with
  | nil => simp [chars] at h; subst h; simpa
  | cons x a ih =>
    simp only [chars, Out.bind_eq_ok] at h
    obtain ⟨c, hc, cs, hcs, he⟩ := h
    simp at he; subst he
    simp [chars, hc, ih hcs]

end Cardano.Bech32
