/-! Bit strings, most significant bit first. -/

namespace Cardano

/-- The `w` low bits of `n`, most significant first. -/
def toBits : (w n : Nat) → List Bool
  | 0, _ => []
  | w + 1, n => n.testBit w :: toBits w n

@[simp] theorem toBits_length (w n : Nat) : (toBits w n).length = w := by
  induction w with
  | zero => rfl
  | succ w ih => simp [toBits, ih]

theorem toBits_congr {w m n : Nat} (h : ∀ i < w, m.testBit i = n.testBit i) :
    toBits w m = toBits w n := by
  induction w with
  | zero => rfl
  | succ w ih =>
    simp only [toBits]
    rw [h w (by omega), ih (fun i hi => h i (by omega))]

theorem toBits_inj {w m n : Nat} (h : toBits w m = toBits w n) :
    ∀ i < w, m.testBit i = n.testBit i := by
  induction w with
  | zero => intro i hi; omega
  | succ w ih =>
    simp only [toBits, List.cons.injEq] at h
    intro i hi
    by_cases hiw : i = w
    · subst hiw; exact h.1
    · exact ih h.2 i (by omega)

theorem toBits_inj_lt {w m n : Nat} (hm : m < 2 ^ w) (hn : n < 2 ^ w)
    (h : toBits w m = toBits w n) : m = n := by
  apply Nat.eq_of_testBit_eq
  intro i
  by_cases hi : i < w
  · exact toBits_inj h i hi
  · have hp : 2 ^ w ≤ 2 ^ i := Nat.pow_le_pow_right (by omega) (by omega)
    rw [Nat.testBit_lt_two_pow (by omega), Nat.testBit_lt_two_pow (by omega)]

theorem toBits_add (a b n : Nat) : toBits (a + b) n = toBits a (n >>> b) ++ toBits b n := by
  induction a with
  | zero => simp [toBits]
  | succ a ih =>
    have : a + 1 + b = (a + b) + 1 := by omega
    rw [this]
    simp only [toBits, ih, List.cons_append]
    congr 1
    rw [Nat.testBit_shiftRight, Nat.add_comm]

theorem toBits_and_mask {w k n : Nat} (h : w ≤ k) : toBits w (n &&& (2 ^ k - 1)) = toBits w n := by
  apply toBits_congr
  intro i hi
  rw [Nat.testBit_and, Nat.testBit_two_pow_sub_one]
  simp [show i < k by omega]

theorem toBits_push {bits w k acc v : Nat} (hv : v < 2 ^ w) (hk : bits + w ≤ k) :
    toBits (bits + w) (((acc <<< w) ||| v) &&& (2 ^ k - 1)) = toBits bits acc ++ toBits w v := by
  rw [toBits_and_mask hk, toBits_add]
  congr 1
  · apply toBits_congr
    intro i _
    rw [Nat.testBit_shiftRight, Nat.testBit_or, Nat.testBit_shiftLeft]
    have : v.testBit (w + i) = false := by
      apply Nat.testBit_lt_two_pow
      exact Nat.lt_of_lt_of_le hv (Nat.pow_le_pow_right (by omega) (by omega))
    simp [this]
  · apply toBits_congr
    intro i hi
    rw [Nat.testBit_or, Nat.testBit_shiftLeft]
    simp [show ¬ w ≤ i by omega]

theorem toBits_zero (w : Nat) : toBits w 0 = List.replicate w false := by
  induction w with
  | zero => rfl
  | succ w ih => simp [toBits, ih, List.replicate_succ]

theorem toBits_eq_zeros {w n : Nat} (h : toBits w n = List.replicate w false) (hn : n < 2 ^ w) :
    n = 0 := by
  apply toBits_inj_lt hn (Nat.two_pow_pos w)
  rw [h, toBits_zero]

/-- padding with zeros on the right -/
theorem toBits_pad {b t acc : Nat} (h : b ≤ t) :
    toBits t ((acc <<< (t - b)) &&& (2 ^ t - 1)) = toBits b acc ++ List.replicate (t - b) false := by
  rw [toBits_and_mask (Nat.le_refl t)]
  conv => lhs; rw [show t = b + (t - b) by omega]
  rw [toBits_add, ← toBits_zero]
  congr 1
  · apply toBits_congr
    intro i _
    rw [Nat.testBit_shiftRight, Nat.testBit_shiftLeft]
    simp
  · apply toBits_congr
    intro i hi
    rw [Nat.testBit_shiftLeft]
    simp; omega

/-- Concatenated `w`-bit groups. -/
def groupBits (w : Nat) (l : List Nat) : List Bool := l.flatMap (toBits w)

@[simp] theorem groupBits_nil (w) : groupBits w [] = [] := rfl
@[simp] theorem groupBits_cons (w x l) : groupBits w (x :: l) = toBits w x ++ groupBits w l := rfl
@[simp] theorem groupBits_append (w l m) : groupBits w (l ++ m) = groupBits w l ++ groupBits w m := by
  simp [groupBits]

@[simp] theorem groupBits_length (w l) : (groupBits w l).length = w * l.length := by
  induction l with
  | nil => simp
  | cons x l ih => simp [ih, Nat.mul_add]; omega

theorem groupBits_inj {w : Nat} {l m : List Nat} (hl : ∀ x ∈ l, x < 2 ^ w) (hm : ∀ x ∈ m, x < 2 ^ w)
    (hlen : l.length = m.length) (h : groupBits w l = groupBits w m) : l = m := by
  induction l generalizing m with
  | nil => cases m with
    | nil => rfl
    | cons => simp at hlen
  | cons x l ih =>
    cases m with
    | nil => simp at hlen
    | cons y m =>
      simp only [groupBits_cons] at h
      have := List.append_inj h (by simp)
      rw [toBits_inj_lt (hl x (by simp)) (hm y (by simp)) this.1,
        ih (fun z hz => hl z (by simp [hz])) (fun z hz => hm z (by simp [hz])) (by simpa using hlen) this.2]

end Cardano
