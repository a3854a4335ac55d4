import Verif.Lemmas.Bech32Poly

/-! # The distance of the Bech32 code

Symbols are elements of GF(32); the state of `polymod` is a vector of six of them, packed into
30 bits.  `polymodStep` is linear over GF(32).  That no three columns of the parity check matrix
of length 1023, and no four of length 89, are dependent is evaluated by the kernel after
projecting away one resp. two of them. -/

namespace Cardano.Bech32

/-! ### xor-linear functions -/

theorem xor_top_lt {n x : Nat} (h : x < 2 ^ (n + 1)) (hn : ¬ x < 2 ^ n) : x ^^^ 2 ^ n < 2 ^ n := by
  have ht : x.testBit n = true := by
    rw [Nat.testBit_eq_decide_div_mod_eq, decide_eq_true_iff]
    have h1 : x / 2 ^ n < 2 := Nat.div_lt_of_lt_mul (by rw [Nat.pow_succ] at h; exact h)
    have h2 : 0 < x / 2 ^ n := Nat.div_pos (by omega) (Nat.two_pow_pos n)
    omega
  apply Nat.lt_pow_two_of_testBit
  intro i hi
  rw [Nat.testBit_xor, Nat.testBit_two_pow]
  rcases Nat.lt_or_ge n i with hlt | hge
  · rw [Nat.testBit_lt_two_pow (Nat.lt_of_lt_of_le h (Nat.pow_le_pow_right (by decide) hlt))]
    simp; omega
  · obtain rfl : i = n := by omega
    simp [ht]

/-- xor-linear on the numbers below `2^N` -/
def Lin (N : Nat) (f : Nat → Nat) : Prop := ∀ x y, x < 2 ^ N → y < 2 ^ N → f (x ^^^ y) = f x ^^^ f y

theorem Lin.zero {N f} (h : Lin N f) : f 0 = 0 := by
  have := h 0 0 (Nat.two_pow_pos N) (Nat.two_pow_pos N)
  rwa [Nat.xor_self, Nat.xor_self] at this

theorem lin_split {n x : Nat} (h : x < 2 ^ (n + 1)) (hn : ¬ x < 2 ^ n) : x = (x ^^^ 2 ^ n) ^^^ 2 ^ n ∧ x ^^^ 2 ^ n < 2 ^ n :=
  ⟨by rw [Nat.xor_assoc, Nat.xor_self, Nat.xor_zero], xor_top_lt h hn⟩

/-- Two xor-linear functions that agree on the powers of two agree. -/
theorem lin_ext {f g : Nat → Nat} (N : Nat) (hf : Lin N f) (hg : Lin N g) (h : ∀ i, i < N → f (2 ^ i) = g (2 ^ i)) :
    ∀ n, n ≤ N → ∀ x, x < 2 ^ n → f x = g x := by
  intro n
  induction n with
  | zero => intro _ x hx; obtain rfl : x = 0 := by omega
            rw [hf.zero, hg.zero]
  | succ n ih =>
    intro hn x hx
    have ih := ih (by omega)
    by_cases hlt : x < 2 ^ n
    · exact ih x hlt
    · obtain ⟨e, hl⟩ := lin_split hx hlt
      have h1 : x ^^^ 2 ^ n < 2 ^ N := Nat.lt_of_lt_of_le hl (Nat.pow_le_pow_right (by decide) (by omega))
      have h2 : 2 ^ n < 2 ^ N := Nat.pow_lt_pow_right (by decide) (by omega)
      rw [e, hf _ _ h1 h2, hg _ _ h1 h2, ih _ hl, h n (by omega)]

/-- A xor-linear function is bounded by a power of two if it is on the powers of two. -/
theorem lin_lt {f : Nat → Nat} (N M : Nat) (hf : Lin N f) (h : ∀ i, i < N → f (2 ^ i) < 2 ^ M) :
    ∀ n, n ≤ N → ∀ x, x < 2 ^ n → f x < 2 ^ M := by
  intro n
  induction n with
  | zero => intro _ x hx; obtain rfl : x = 0 := by omega
            rw [hf.zero]; exact Nat.two_pow_pos M
  | succ n ih =>
    intro hn x hx
    have ih := ih (by omega)
    by_cases hlt : x < 2 ^ n
    · exact ih x hlt
    · obtain ⟨e, hl⟩ := lin_split hx hlt
      have h1 : x ^^^ 2 ^ n < 2 ^ N := Nat.lt_of_lt_of_le hl (Nat.pow_le_pow_right (by decide) (by omega))
      have h2 : 2 ^ n < 2 ^ N := Nat.pow_lt_pow_right (by decide) (by omega)
      rw [e, hf _ _ h1 h2]
      exact Nat.xor_lt_two_pow (ih _ hl) (h n (by omega))

/-! ### Scalars -/

/-- Multiplication of every symbol by {2} (`a⁵ = a³ + 1`). -/
def dbl (c : Nat) : Nat := ((c &&& 0x1ef7bdef) <<< 1) ^^^ (((c >>> 4) &&& 0x2108421) ^^^ (((c >>> 4) &&& 0x2108421) <<< 3))

/-- Multiplication of every symbol by `a`. -/
def smul (a c : Nat) : Nat :=
  (bif a.testBit 0 then c else 0) ^^^ ((bif a.testBit 1 then dbl c else 0) ^^^ ((bif a.testBit 2 then dbl (dbl c) else 0) ^^^
    ((bif a.testBit 3 then dbl (dbl (dbl c)) else 0) ^^^ (bif a.testBit 4 then dbl (dbl (dbl (dbl c))) else 0))))

theorem dbl_xor (x y : Nat) : dbl (x ^^^ y) = dbl x ^^^ dbl y := by
  unfold dbl
  simp only [Nat.and_xor_distrib_right, Nat.shiftLeft_xor_distrib, Nat.shiftRight_xor_distrib]
  ac_rfl

theorem cond_xor (p : Bool) (x y : Nat) : (bif p then x ^^^ y else 0) = (bif p then x else 0) ^^^ (bif p then y else 0) := by
  cases p <;> simp

theorem xor5 (a b c d e a' b' c' d' e' : Nat) :
    (a ^^^ a') ^^^ ((b ^^^ b') ^^^ ((c ^^^ c') ^^^ ((d ^^^ d') ^^^ (e ^^^ e')))) =
      (a ^^^ (b ^^^ (c ^^^ (d ^^^ e)))) ^^^ (a' ^^^ (b' ^^^ (c' ^^^ (d' ^^^ e')))) := by ac_rfl

theorem smul_xor (a x y : Nat) : smul a (x ^^^ y) = smul a x ^^^ smul a y := by
  unfold smul
  simp only [dbl_xor, cond_xor]
  exact xor5 ..

theorem cond_bxor (p q : Bool) (x : Nat) : (bif (p ^^ q) then x else 0) = (bif p then x else 0) ^^^ (bif q then x else 0) := by
  cases p <;> cases q <;> simp

theorem xor_smul (a b x : Nat) : smul (a ^^^ b) x = smul a x ^^^ smul b x := by
  unfold smul
  simp only [Nat.testBit_xor, cond_bxor]
  exact xor5 ..

theorem dbl_zero : dbl 0 = 0 := by decide
theorem smul_zero (a : Nat) : smul a 0 = 0 := by
  have := smul_xor a 0 0
  rwa [Nat.xor_self, Nat.xor_self] at this
theorem zero_smul (x : Nat) : smul 0 x = 0 := by simp [smul]
theorem one_smul (x : Nat) : smul 1 x = x := by
  have h : ∀ i : Fin 4, Nat.testBit 1 (i + 1) = false := by decide
  have h1 := h 0; have h2 := h 1; have h3 := h 2; have h4 := h 3
  unfold smul
  simp only [show Nat.testBit 1 0 = true from rfl, show Nat.testBit 1 1 = false from rfl, show Nat.testBit 1 2 = false from rfl,
    show Nat.testBit 1 3 = false from rfl, show Nat.testBit 1 4 = false from rfl, cond_true, cond_false, Nat.xor_zero]

theorem lin_smul (a N : Nat) : Lin N (smul a) := fun x y _ _ => smul_xor a x y

theorem smul_lt30 {a c : Nat} (ha : a < 32) (h : c < 2 ^ 30) : smul a c < 2 ^ 30 :=
  lin_lt 30 30 (lin_smul a 30) (fun i hi => (show ∀ a : Fin 32, ∀ i : Fin 30, smul a (2 ^ i.val) < 2 ^ 30 by decide +kernel) ⟨a, ha⟩ ⟨i, hi⟩) 30 (by omega) c h

theorem smul_lt5 {a c : Nat} (ha : a < 32) (h : c < 32) : smul a c < 32 :=
  lin_lt 5 5 (lin_smul a 5) (fun i hi => (show ∀ a : Fin 32, ∀ i : Fin 5, smul a (2 ^ i.val) < 2 ^ 5 by decide +kernel) ⟨a, ha⟩ ⟨i, hi⟩) 5 (by omega) c h

theorem smul_smul {a b c : Nat} (ha : a < 32) (hb : b < 32) (h : c < 2 ^ 30) : smul a (smul b c) = smul (smul a b) c := by
  refine lin_ext 30 (f := fun c => smul a (smul b c)) (g := smul (smul a b)) (fun x y _ _ => by simp only [smul_xor]) (lin_smul _ 30) ?_ 30 (by omega) c h
  intro i hi
  exact (show ∀ a b : Fin 32, ∀ i : Fin 30, smul a (smul b (2 ^ i.val)) = smul (smul a b) (2 ^ i.val) by decide +kernel) ⟨a, ha⟩ ⟨b, hb⟩ ⟨i, hi⟩

theorem smul_inv {a : Nat} (ha : a < 32) (h0 : a ≠ 0) : ∃ b, b < 32 ∧ b ≠ 0 ∧ smul b a = 1 := by
  obtain ⟨b, h1, h2⟩ := (show ∀ a : Fin 32, a.val ≠ 0 → ∃ b : Fin 32, b.val ≠ 0 ∧ smul b a = 1 by decide +kernel) ⟨a, ha⟩ h0
  exact ⟨b, b.isLt, h1, h2⟩

/-- `smul a 1 = a` on symbols. -/
theorem smul_one {a : Nat} (ha : a < 32) : smul a 1 = a :=
  (show ∀ a : Fin 32, smul a 1 = a by decide +kernel) ⟨a, ha⟩

theorem smul_eq_zero {a c : Nat} (ha : a < 32) (h : c < 2 ^ 30) (h0 : a ≠ 0) (hz : smul a c = 0) : c = 0 := by
  obtain ⟨b, hb, -, hba⟩ := smul_inv ha h0
  have := smul_smul hb ha h
  rw [hz, smul_zero, hba, one_smul] at this
  exact this.symm

theorem smul_ne_zero {a b : Nat} (ha : a < 32) (hb : b < 32) (h0 : a ≠ 0) (h1 : b ≠ 0) : smul a b ≠ 0 :=
  fun h => h1 (smul_eq_zero ha (by omega) h0 h)

/-! ### Symbols of a state -/

/-- Symbol `k` of a packed state. -/
def sym (k c : Nat) : Nat := (c >>> (5 * k)) % 32

theorem sym_lt (k c : Nat) : sym k c < 32 := Nat.mod_lt _ (by decide)

theorem sym_xor (k x y : Nat) : sym k (x ^^^ y) = sym k x ^^^ sym k y := by
  unfold sym
  rw [Nat.shiftRight_xor_distrib, xor_mod32]

theorem sym_smul {a c k : Nat} (ha : a < 32) (h : c < 2 ^ 30) (hk : k < 6) : sym k (smul a c) = smul a (sym k c) := by
  refine lin_ext 30 (f := fun c => sym k (smul a c)) (g := fun c => smul a (sym k c))
    (fun x y _ _ => by simp only [smul_xor, sym_xor]) (fun x y _ _ => by simp only [smul_xor, sym_xor]) ?_ 30 (by omega) c h
  intro i hi
  exact (show ∀ a : Fin 32, ∀ k : Fin 6, ∀ i : Fin 30, sym k (smul a (2 ^ i.val)) = smul a (sym k (2 ^ i.val)) by decide +kernel) ⟨a, ha⟩ ⟨k, hk⟩ ⟨i, hi⟩

theorem eq_zero_of_sym {c : Nat} (h : c < 2 ^ 30) (hs : ∀ k, k < 6 → sym k c = 0) : c = 0 := by
  have := hs 0 (by decide); have := hs 1 (by decide); have := hs 2 (by decide)
  have := hs 3 (by decide); have := hs 4 (by decide); have := hs 5 (by decide)
  simp only [sym, Nat.shiftRight_eq_div_pow] at *
  omega

/-! ### Normal forms: the lowest non-zero symbol is 1 -/

/-- Lowest non-zero symbol at position `k`, with value 1. -/
def NF (c : Nat) : Prop := ∃ k, k < 6 ∧ sym k c = 1 ∧ ∀ j, j < k → sym j c = 0

theorem nf_unique {a b x y : Nat} (ha : a < 32) (hb : b < 32) (hx : x < 2 ^ 30) (hy : y < 2 ^ 30) (nx : NF x) (ny : NF y)
    (h : smul a x = smul b y) : (a = 0 ∧ b = 0) ∨ x = y := by
  obtain ⟨i, hi, si, zi⟩ := nx
  obtain ⟨j, hj, sj, zj⟩ := ny
  have hsym : ∀ k, k < 6 → smul a (sym k x) = smul b (sym k y) := by
    intro k hk
    rw [← sym_smul ha hx hk, ← sym_smul hb hy hk, h]
  rcases Nat.lt_trichotomy i j with hij | rfl | hij
  · left
    have h1 := hsym i hi
    rw [si, zj i hij, smul_zero, smul_one ha] at h1
    have h2 := hsym j hj
    rw [sj, smul_one hb, h1, zero_smul] at h2
    exact ⟨h1, h2.symm⟩
  · have h1 := hsym i hi
    rw [si, sj, smul_one ha, smul_one hb] at h1
    subst h1
    by_cases h0 : a = 0
    · exact Or.inl ⟨h0, h0⟩
    · right
      have : smul a (x ^^^ y) = 0 := by rw [smul_xor, h, Nat.xor_self]
      have := smul_eq_zero ha (Nat.xor_lt_two_pow hx hy) h0 this
      exact (xor_cancel_left (a := y) (by rw [Nat.xor_self, Nat.xor_comm]; exact this.symm)).symm
  · left
    have h1 := hsym j hj
    rw [sj, zi j hij, smul_zero, smul_one hb] at h1
    have h2 := hsym i hi
    rw [si, smul_one ha, ← h1, zero_smul] at h2
    exact ⟨h2, h1.symm⟩

/-- Inverses, packed. -/
def invTable : Nat := 0x7ecedf3aa39c322bc656feb8649165eb10ac5020

/-- Inverse of a symbol. -/
def inv5 (a : Nat) : Nat := (invTable >>> (5 * a)) % 32

theorem inv5_spec : ∀ a : Fin 32, a.val ≠ 0 → smul (inv5 a) a = 1 ∧ inv5 a ≠ 0 := by decide +kernel

/-- Lowest non-zero symbol. -/
def lowSym (c : Nat) : Nat :=
  bif !Nat.beq (sym 0 c) 0 then sym 0 c else bif !Nat.beq (sym 1 c) 0 then sym 1 c else
  bif !Nat.beq (sym 2 c) 0 then sym 2 c else bif !Nat.beq (sym 3 c) 0 then sym 3 c else
  bif !Nat.beq (sym 4 c) 0 then sym 4 c else sym 5 c

theorem lowSym_spec {c : Nat} (h : c < 2 ^ 30) (h0 : c ≠ 0) :
    ∃ k, k < 6 ∧ sym k c = lowSym c ∧ lowSym c ≠ 0 ∧ ∀ j, j < k → sym j c = 0 := by
  have hb : ∀ n, (!Nat.beq n 0) = decide (n ≠ 0) := by
    intro n; cases n <;> rfl
  unfold lowSym
  simp only [hb, Bool.cond_decide]
  by_cases h0' : sym 0 c = 0
  rotate_left
  · exact ⟨0, by decide, by simp [h0'], by simp [h0'], by omega⟩
  by_cases h1 : sym 1 c = 0
  rotate_left
  · refine ⟨1, by decide, by simp [h0', h1], by simp [h0', h1], ?_⟩
    intro j hj
    obtain rfl : j = 0 := by omega
    exact h0'
  by_cases h2 : sym 2 c = 0
  rotate_left
  · refine ⟨2, by decide, by simp [h0', h1, h2], by simp [h0', h1, h2], ?_⟩
    intro j hj
    rcases (show j = 0 ∨ j = 1 by omega) with rfl | rfl <;> assumption
  by_cases h3 : sym 3 c = 0
  rotate_left
  · refine ⟨3, by decide, by simp [h0', h1, h2, h3], by simp [h0', h1, h2, h3], ?_⟩
    intro j hj
    rcases (show j = 0 ∨ j = 1 ∨ j = 2 by omega) with rfl | rfl | rfl <;> assumption
  by_cases h4 : sym 4 c = 0
  rotate_left
  · refine ⟨4, by decide, by simp [h0', h1, h2, h3, h4], by simp [h0', h1, h2, h3, h4], ?_⟩
    intro j hj
    rcases (show j = 0 ∨ j = 1 ∨ j = 2 ∨ j = 3 by omega) with rfl | rfl | rfl | rfl <;> assumption
  have h5 : sym 5 c ≠ 0 := by
    intro h5
    apply h0
    apply eq_zero_of_sym h
    intro k hk
    rcases (show k = 0 ∨ k = 1 ∨ k = 2 ∨ k = 3 ∨ k = 4 ∨ k = 5 by omega) with rfl | rfl | rfl | rfl | rfl | rfl <;> assumption
  refine ⟨5, by decide, by simp [h0', h1, h2, h3, h4], by simp [h0', h1, h2, h3, h4, h5], ?_⟩
  intro j hj
  rcases (show j = 0 ∨ j = 1 ∨ j = 2 ∨ j = 3 ∨ j = 4 by omega) with rfl | rfl | rfl | rfl | rfl <;> assumption

/-- Scale so that the lowest non-zero symbol is 1. -/
def norm (c : Nat) : Nat := smul (inv5 (lowSym c)) c

theorem norm_spec {c : Nat} (h : c < 2 ^ 30) (h0 : c ≠ 0) :
    NF (norm c) ∧ norm c < 2 ^ 30 ∧ ∃ t, t < 32 ∧ t ≠ 0 ∧ smul t (norm c) = c := by
  obtain ⟨k, hk, hs, hn, hz⟩ := lowSym_spec h h0
  have hlt : lowSym c < 32 := hs ▸ sym_lt k c
  have hi := inv5_spec ⟨lowSym c, hlt⟩ hn
  have hil : inv5 (lowSym c) < 32 := Nat.mod_lt _ (by decide)
  refine ⟨⟨k, hk, ?_, ?_⟩, smul_lt30 hil h, ?_⟩
  · unfold norm; rw [sym_smul hil h hk, hs]; exact hi.1
  · intro j hj
    unfold norm; rw [sym_smul hil h (by omega), hz j hj, smul_zero]
  · obtain ⟨t, ht, ht0, e⟩ := smul_inv hil hi.2
    refine ⟨t, ht, ht0, ?_⟩
    unfold norm
    rw [smul_smul ht hil h, e, one_smul]

end Cardano.Bech32
