import Verif.Model.Bech32

/-! `polymod` is xor-linear, and injective on windows of six symbols. -/

namespace Cardano.Bech32

/-- the conditional generator xors -/
def gsel (t : Nat) : Nat :=
  (if t &&& 1 ≠ 0 then 0x3b6a57b2 else 0) ^^^ (if t &&& 2 ≠ 0 then 0x26508e6d else 0) ^^^
  (if t &&& 4 ≠ 0 then 0x1ea119fa else 0) ^^^ (if t &&& 8 ≠ 0 then 0x3d4233dd else 0) ^^^
  (if t &&& 16 ≠ 0 then 0x2a1462b3 else 0)

theorem polymodStep_eq (c v : Nat) :
    polymodStep c v = ((c &&& 0x1ffffff) <<< 5) ^^^ v ^^^ gsel ((c >>> 25) % 256) := by
  unfold polymodStep gsel
  generalize (c >>> 25) % 256 = t
  have h0 : ∀ (p : Prop) [Decidable p] (x g : Nat), (if p then x ^^^ g else x) = x ^^^ (if p then g else 0) := by
    intro p _ x g; split <;> simp
  simp only [h0]
  simp only [Nat.xor_assoc]

theorem gsel_lt : ∀ t : Fin 32, gsel t < 2 ^ 30 := by decide +kernel
theorem gsel_xor : ∀ s t : Fin 32, gsel (s.val ^^^ t.val) = gsel s ^^^ gsel t := by decide +kernel
theorem gsel_low : ∀ t : Fin 32, gsel t % 32 = 0 → t.val = 0 := by decide +kernel

theorem top_lt {c : Nat} (h : c < 2 ^ 30) : c >>> 25 < 32 := by
  rw [Nat.shiftRight_eq_div_pow]; omega

theorem top_mod {c : Nat} (h : c < 2 ^ 30) : (c >>> 25) % 256 = c >>> 25 :=
  Nat.mod_eq_of_lt (by have := top_lt h; omega)

theorem low_lt (c : Nat) : (c &&& 0x1ffffff) <<< 5 < 2 ^ 30 := by
  have : c &&& 0x1ffffff < 2 ^ 25 := by
    rw [show (0x1ffffff : Nat) = 2 ^ 25 - 1 by decide, Nat.and_two_pow_sub_one_eq_mod]
    exact Nat.mod_lt _ (by decide)
  rw [Nat.shiftLeft_eq]; omega

theorem step_lt {c v : Nat} (hc : c < 2 ^ 30) (hv : v < 32) : polymodStep c v < 2 ^ 30 := by
  rw [polymodStep_eq, top_mod hc]
  apply Nat.xor_lt_two_pow
  · exact Nat.xor_lt_two_pow (low_lt c) (by omega)
  · exact gsel_lt ⟨_, top_lt hc⟩

theorem xor_cancel_left {a b c : Nat} (h : a ^^^ b = a ^^^ c) : b = c := by
  have := congrArg (a ^^^ ·) h
  simpa [← Nat.xor_assoc] using this

theorem xor4 (a b c d e f : Nat) : (a ^^^ b ^^^ (c ^^^ d)) ^^^ (e ^^^ f) = (a ^^^ c ^^^ e) ^^^ (b ^^^ d ^^^ f) := by
  ac_rfl

theorem step_xor {a b u v : Nat} (ha : a < 2 ^ 30) (hb : b < 2 ^ 30) :
    polymodStep (a ^^^ b) (u ^^^ v) = polymodStep a u ^^^ polymodStep b v := by
  have hab : a ^^^ b < 2 ^ 30 := Nat.xor_lt_two_pow ha hb
  rw [polymodStep_eq, polymodStep_eq, polymodStep_eq, top_mod ha, top_mod hb, top_mod hab,
    Nat.shiftRight_xor_distrib, gsel_xor ⟨_, top_lt ha⟩ ⟨_, top_lt hb⟩]
  have h1 : ((a ^^^ b) &&& 0x1ffffff) <<< 5 = ((a &&& 0x1ffffff) <<< 5) ^^^ ((b &&& 0x1ffffff) <<< 5) := by
    rw [Nat.and_xor_distrib_right, Nat.shiftLeft_xor_distrib]
  rw [h1]
  exact xor4 _ _ _ _ _ _

theorem xor_mod32 (a b : Nat) : (a ^^^ b) % 32 = (a % 32) ^^^ (b % 32) := by
  rw [show (32 : Nat) = 2 ^ 5 by decide, Nat.xor_mod_two_pow]

theorem step_zero_inj {c : Nat} (hc : c < 2 ^ 30) (h : polymodStep c 0 = 0) : c = 0 := by
  rw [polymodStep_eq, top_mod hc, Nat.xor_zero] at h
  have hm := congrArg (· % 32) h
  simp only [xor_mod32] at hm
  have h5 : ((c &&& 0x1ffffff) <<< 5) % 32 = 0 := by rw [Nat.shiftLeft_eq]; omega
  rw [h5, Nat.zero_xor] at hm
  have ht : c >>> 25 = 0 := gsel_low ⟨_, top_lt hc⟩ hm
  rw [ht] at h
  have hg : gsel 0 = 0 := by decide
  rw [hg, Nat.xor_zero, Nat.shiftLeft_eq, show (0x1ffffff : Nat) = 2 ^ 25 - 1 by decide,
    Nat.and_two_pow_sub_one_eq_mod] at h
  rw [Nat.shiftRight_eq_div_pow] at ht
  omega

/-- fold from an arbitrary state -/
def pm (c : Nat) (vs : List Nat) : Nat := vs.foldl polymodStep c

@[simp] theorem pm_nil (c) : pm c [] = c := rfl
@[simp] theorem pm_cons (c v vs) : pm c (v :: vs) = pm (polymodStep c v) vs := rfl
theorem pm_append (c l m) : pm c (l ++ m) = pm (pm c l) m := by simp [pm]
theorem polymod_eq (vs) : polymod vs = pm 1 vs := rfl

theorem pm_lt {vs : List Nat} : ∀ {c}, c < 2 ^ 30 → (∀ v ∈ vs, v < 32) → pm c vs < 2 ^ 30 := by
  induction vs with
  | nil => intro c hc _; exact hc
  | cons v vs ih =>
    intro c hc hv
    exact ih (step_lt hc (hv v (by simp))) (fun x hx => hv x (by simp [hx]))

theorem pm_xor : ∀ {us vs : List Nat} {a b : Nat}, a < 2 ^ 30 → b < 2 ^ 30 → us.length = vs.length →
    (∀ v ∈ us, v < 32) → (∀ v ∈ vs, v < 32) →
    pm (a ^^^ b) (List.zipWith (· ^^^ ·) us vs) = pm a us ^^^ pm b vs := by
  intro us
  induction us with
  | nil =>
    intro vs a b _ _ hl _ _
    cases vs with
    | nil => rfl
    | cons => simp at hl
  | cons u us ih =>
    intro vs a b ha hb hl hu hv
    cases vs with
    | nil => simp at hl
    | cons v vs =>
      simp only [List.zipWith_cons_cons, pm_cons]
      rw [step_xor ha hb]
      exact ih (step_lt ha (hu u (by simp))) (step_lt hb (hv v (by simp))) (by simpa using hl)
        (fun x hx => hu x (by simp [hx])) (fun x hx => hv x (by simp [hx]))

theorem zipWith_xor_self (l : List Nat) : List.zipWith (· ^^^ ·) l l = List.replicate l.length 0 := by
  induction l with
  | nil => rfl
  | cons x l ih => rw [List.zipWith_cons_cons, ih, Nat.xor_self]; rfl

theorem pm_zeros_inj : ∀ (n c : Nat), c < 2 ^ 30 → pm c (List.replicate n 0) = 0 → c = 0 := by
  intro n
  induction n with
  | zero => intro c _ h; exact h
  | succ n ih =>
    intro c hc h
    rw [List.replicate_succ, pm_cons] at h
    exact step_zero_inj hc (ih _ (step_lt hc (by omega)) h)

/-- different states stay different under the same suffix -/
theorem pm_state_inj {c d : Nat} {vs : List Nat} (hc : c < 2 ^ 30) (hd : d < 2 ^ 30)
    (hv : ∀ v ∈ vs, v < 32) (h : pm c vs = pm d vs) : c = d := by
  have hx := pm_xor hc hd (rfl : vs.length = vs.length) hv hv
  rw [h, Nat.xor_self, zipWith_xor_self] at hx
  have := pm_zeros_inj _ _ (Nat.xor_lt_two_pow hc hd) hx
  exact (xor_cancel_left (a := d) (by rw [Nat.xor_self, Nat.xor_comm]; exact this.symm)).symm

theorem step_small {c v : Nat} (hc : c < 2 ^ 25) (hv : v < 32) : polymodStep c v = c * 32 + v := by
  have h0 : c >>> 25 = 0 := by rw [Nat.shiftRight_eq_div_pow]; omega
  rw [polymodStep_eq, h0]
  have hg : gsel (0 % 256) = 0 := by decide
  rw [hg, Nat.xor_zero, show (0x1ffffff : Nat) = 2 ^ 25 - 1 by decide,
    Nat.and_two_pow_sub_one_eq_mod, Nat.mod_eq_of_lt hc, Nat.shiftLeft_eq]
  have : c * 2 ^ 5 ^^^ v = c * 2 ^ 5 + v := by
    apply Nat.eq_of_testBit_eq
    intro i
    rw [Nat.mul_comm c, Nat.testBit_xor, Nat.testBit_two_pow_mul_add c (by omega : v < 2 ^ 5), Nat.testBit_two_pow_mul]
    by_cases hi : i < 5
    · simp [hi, show ¬ i ≥ 5 by omega]
    · have hp : 2 ^ 5 ≤ 2 ^ i := Nat.pow_le_pow_right (by omega) (by omega)
      rw [Nat.testBit_lt_two_pow (show v < 2 ^ i by omega)]
      simp [hi, show i ≥ 5 by omega]
  rw [this]

/-- base-32 positional value -/
def pack (c : Nat) (w : List Nat) : Nat := w.foldl (fun c v => c * 32 + v) c

theorem pm_pack : ∀ (w : List Nat) (k c : Nat), c < 2 ^ (5 * k) → k + w.length ≤ 6 → (∀ v ∈ w, v < 32) →
    pm c w = pack c w := by
  intro w
  induction w with
  | nil => intros; rfl
  | cons v w ih =>
    intro k c hc hk hv
    have hv0 := hv v (by simp)
    simp at hk
    have hc25 : c < 2 ^ 25 := Nat.lt_of_lt_of_le hc (Nat.pow_le_pow_right (by omega) (by omega))
    rw [pm_cons, step_small hc25 hv0, ih (k + 1)]
    · rfl
    · rw [show 5 * (k + 1) = 5 * k + 5 by omega, Nat.pow_add]; omega
    · omega
    · exact fun x hx => hv x (by simp [hx])

theorem pack_inj : ∀ (w w' : List Nat) (c c' : Nat), w.length = w'.length → (∀ v ∈ w, v < 32) →
    (∀ v ∈ w', v < 32) → pack c w = pack c' w' → c = c' ∧ w = w' := by
  intro w
  induction w with
  | nil =>
    intro w' c c' hl _ _ h
    cases w' with
    | nil => exact ⟨h, rfl⟩
    | cons => simp at hl
  | cons v w ih =>
    intro w' c c' hl hv hv' h
    cases w' with
    | nil => simp at hl
    | cons v' w' =>
      have := ih w' _ _ (by simpa using hl) (fun x hx => hv x (by simp [hx]))
        (fun x hx => hv' x (by simp [hx])) h
      have h1 := hv v (by simp)
      have h2 := hv' v' (by simp)
      have h3 := this.1
      simp only at h3
      refine ⟨by omega, ?_⟩
      rw [this.2, show v = v' by omega]

theorem zipWith_zero_left (w : List Nat) : List.zipWith (· ^^^ ·) (List.replicate w.length 0) w = w := by
  induction w with
  | nil => rfl
  | cons x w ih => simp [List.replicate_succ, ih]

/-- at most six symbols add their packed value to the state of a zero window -/
theorem pm_window {c : Nat} {w : List Nat} (hc : c < 2 ^ 30) (hlen : w.length ≤ 6) (hw : ∀ v ∈ w, v < 32) :
    pm c w = pm c (List.replicate w.length 0) ^^^ pack 0 w := by
  have := pm_xor (us := List.replicate w.length 0) (vs := w) hc (show 0 < 2 ^ 30 by decide) (by simp)
    (by intro v hv; rw [List.mem_replicate] at hv; omega) hw
  rw [zipWith_zero_left, Nat.xor_zero] at this
  rw [this, pm_pack w 0 0 (by simp) (by omega) hw]

/-- two windows of at most six symbols are distinguished -/
theorem pm_window_inj {c : Nat} {w w' : List Nat} (hc : c < 2 ^ 30) (hl : w.length = w'.length)
    (hlen : w.length ≤ 6) (hw : ∀ v ∈ w, v < 32) (hw' : ∀ v ∈ w', v < 32)
    (h : pm c w = pm c w') : w = w' := by
  rw [pm_window hc hlen hw, pm_window hc (hl ▸ hlen) hw', hl] at h
  have := xor_cancel_left h
  exact (pack_inj w w' 0 0 hl hw hw' this).2

theorem expandHrp_lt (hrp : Bytes) : ∀ v ∈ expandHrp hrp, v < 32 := by
  intro v hv
  simp only [expandHrp, List.mem_append, List.mem_map, List.mem_singleton] at hv
  rcases hv with (⟨c, _, rfl⟩ | rfl) | ⟨c, _, rfl⟩
  · have := c.toNat_lt
    rw [Nat.shiftRight_eq_div_pow]; omega
  · omega
  · exact Nat.lt_of_le_of_lt Nat.and_le_right (by decide)

theorem groups_pack {m : Nat} (hm : m < 2 ^ 30) :
    pack 0 ([0, 1, 2, 3, 4, 5].map (fun i => (m >>> (5 * (5 - i))) &&& 31)) = m := by
  simp only [pack, List.map_cons, List.map_nil, List.foldl_cons, List.foldl_nil]
  simp only [show (31 : Nat) = 2 ^ 5 - 1 by decide, Nat.and_two_pow_sub_one_eq_mod, Nat.shiftRight_eq_div_pow]
  simp only [Nat.reduceMul, Nat.reduceSub, Nat.reducePow]
  omega

theorem createChecksum_len (hrp vals) : (createChecksum hrp vals).length = 6 := rfl

theorem createChecksum_lt (hrp vals) : ∀ v ∈ createChecksum hrp vals, v < 32 := by
  intro v hv
  simp only [createChecksum, List.mem_map] at hv
  obtain ⟨i, _, rfl⟩ := hv
  exact Nat.lt_of_le_of_lt Nat.and_le_right (by decide)

/-- The checksum is the unique six symbols that make verification succeed. -/
theorem checksum_unique (hrp : Bytes) (vals cs : List Nat) (hv : ∀ v ∈ vals, v < 32)
    (hcs : ∀ v ∈ cs, v < 32) (hlen : cs.length = 6) :
    verifyChecksum hrp (vals ++ cs) = true ↔ cs = createChecksum hrp vals := by
  have hpre : ∀ v ∈ expandHrp hrp ++ vals, v < 32 := by
    intro v h
    rcases List.mem_append.1 h with h | h
    · exact expandHrp_lt hrp v h
    · exact hv v h
  have hc : pm 1 (expandHrp hrp ++ vals) < 2 ^ 30 := pm_lt (by decide) hpre
  have hz : pm (pm 1 (expandHrp hrp ++ vals)) [0, 0, 0, 0, 0, 0] < 2 ^ 30 :=
    pm_lt hc (by simp)
  have hm : polymod (expandHrp hrp ++ vals ++ [0, 0, 0, 0, 0, 0]) ^^^ 1 < 2 ^ 30 := by
    rw [polymod_eq, pm_append]
    exact Nat.xor_lt_two_pow hz (by decide)
  have key : ∀ ds : List Nat, ds.length = 6 → (∀ v ∈ ds, v < 32) →
      polymod (expandHrp hrp ++ (vals ++ ds)) =
        polymod (expandHrp hrp ++ vals ++ [0, 0, 0, 0, 0, 0]) ^^^ pack 0 ds := by
    intro ds hl hd
    rw [polymod_eq, polymod_eq, ← List.append_assoc, pm_append 1 (expandHrp hrp ++ vals), pm_append 1 (expandHrp hrp ++ vals),
      pm_window hc (by omega) hd, hl]
    rfl
  have hcreate : pack 0 (createChecksum hrp vals) =
      polymod (expandHrp hrp ++ vals ++ [0, 0, 0, 0, 0, 0]) ^^^ 1 := groups_pack hm
  unfold verifyChecksum
  rw [key cs hlen hcs, beq_iff_eq]
  constructor
  · intro h
    apply (pack_inj cs _ 0 0 (by rw [hlen]; rfl) hcs (createChecksum_lt hrp vals) ?_).2
    rw [hcreate, ← h, ← Nat.xor_assoc, Nat.xor_self, Nat.zero_xor]
  · intro h
    rw [h, hcreate, ← Nat.xor_assoc, Nat.xor_self, Nat.zero_xor]

end Cardano.Bech32
