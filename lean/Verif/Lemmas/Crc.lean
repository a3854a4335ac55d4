import Verif.Model.Byron

/-! CRC-32: linearity, injectivity of the shift, burst errors. -/

namespace Cardano.Byron

theorem crcShift_xor (a b : BitVec 32) : crcShift (a ^^^ b) = crcShift a ^^^ crcShift b := by
  unfold crcShift
  rw [BitVec.ushiftRight_xor_distrib, BitVec.getLsbD_xor]
  have : ∀ x y p q : BitVec 32, (x ^^^ y) ^^^ (p ^^^ q) = (x ^^^ p) ^^^ (y ^^^ q) := by
    intro x y p q; ac_rfl
  rw [← this]
  congr 1
  cases a.getLsbD 0 <;> cases b.getLsbD 0 <;> simp

theorem crcShift_zero : crcShift 0#32 = 0#32 := by decide

theorem crcShift_eq_zero {s : BitVec 32} (h : crcShift s = 0#32) : s = 0#32 := by
  have h31 : (crcShift s).getLsbD 31 = s.getLsbD 0 := by
    unfold crcShift
    rw [BitVec.getLsbD_xor, BitVec.getLsbD_ushiftRight]
    have : s.getLsbD (1 + 31) = false := BitVec.getLsbD_of_ge s 32 (by omega)
    rw [this]
    cases s.getLsbD 0 <;> simp
  have h0 : s.getLsbD 0 = false := by rw [← h31, h]; simp
  have hs : s >>> 1 = 0#32 := by
    unfold crcShift at h
    rw [h0] at h
    simpa using h
  apply BitVec.eq_of_getLsbD_eq
  intro i hi
  cases i with
  | zero => simpa using h0
  | succ i =>
    have := congrArg (fun v : BitVec 32 => v.getLsbD i) hs
    simp only [BitVec.getLsbD_ushiftRight] at this
    rw [Nat.add_comm] at this
    simpa using this

theorem xor_eq_zero {a b : BitVec 32} (h : a ^^^ b = 0#32) : a = b := by
  have : a ^^^ b ^^^ b = 0#32 ^^^ b := by rw [h]
  rw [BitVec.xor_assoc] at this
  simpa using this

theorem crcShift_inj {a b : BitVec 32} (h : crcShift a = crcShift b) : a = b := by
  apply xor_eq_zero
  apply crcShift_eq_zero
  rw [crcShift_xor, h]; simp

theorem crcBit_inj {a b : BitVec 32} {c : Bool} (h : crcBit a c = crcBit b c) : a = b := by
  have := crcShift_inj h
  have h2 := congrArg (· ^^^ (if c then 1#32 else 0#32)) this
  simp only [BitVec.xor_assoc, BitVec.xor_self, BitVec.xor_zero] at h2
  exact h2

theorem feed_inj (l : List Bool) : ∀ {a b : BitVec 32}, l.foldl crcBit a = l.foldl crcBit b → a = b := by
  induction l with
  | nil => intro a b h; exact h
  | cons c l ih => intro a b h; exact crcBit_inj (ih h)

/-- the bits of a window as a number, first bit least significant -/
def winVal : List Bool → Nat
  | [] => 0
  | b :: l => b.toNat + 2 * winVal l

theorem winVal_lt (l : List Bool) : winVal l < 2 ^ l.length := by
  induction l with
  | nil => simp [winVal]
  | cons b l ih =>
    simp only [winVal, List.length_cons, Nat.pow_succ]
    have : b.toNat ≤ 1 := Bool.toNat_le b
    omega

theorem winVal_inj : ∀ {a b : List Bool}, a.length = b.length → winVal a = winVal b → a = b := by
  intro a
  induction a with
  | nil => intro b h _; cases b <;> simp_all
  | cons x a ih =>
    intro b h e
    cases b with
    | nil => simp at h
    | cons y b =>
      simp only [winVal] at e
      have hx := Bool.toNat_le x
      have hy := Bool.toNat_le y
      have h1 : x = y := by
        cases x <;> cases y <;> simp at e ⊢ <;> omega
      rw [h1, ih (by simpa using h) (by subst h1; omega)]

def iter {α} (f : α → α) : Nat → α → α
  | 0, a => a
  | n + 1, a => iter f n (f a)

theorem crcShift_even (v : Nat) (h : v < 2 ^ 31) : crcShift (BitVec.ofNat 32 (2 * v)) = BitVec.ofNat 32 v := by
  unfold crcShift
  have h0 : (BitVec.ofNat 32 (2 * v)).getLsbD 0 = false := by
    rw [BitVec.getLsbD_ofNat]
    simp
  rw [h0]
  apply BitVec.eq_of_toNat_eq
  simp only [Bool.false_eq_true, if_false, BitVec.xor_zero, BitVec.toNat_ushiftRight, BitVec.toNat_ofNat]
  rw [Nat.mod_eq_of_lt (by omega), Nat.mod_eq_of_lt (by omega), Nat.shiftRight_eq_div_pow]
  omega

/-- Feeding up to 32 bits equals adding them to the state at once and shifting. -/
theorem feed_window : ∀ (l : List Bool) (s : BitVec 32), l.length ≤ 32 →
    l.foldl crcBit s = iter crcShift l.length (s ^^^ BitVec.ofNat 32 (winVal l)) := by
  intro l
  induction l with
  | nil => intro s _; simp [iter, winVal]
  | cons b l ih =>
    intro s h
    simp only [List.length_cons] at h
    rw [List.foldl_cons, ih _ (by omega), List.length_cons, iter]
    congr 1
    have hv : winVal l < 2 ^ 31 :=
      Nat.lt_of_lt_of_le (winVal_lt l) (Nat.pow_le_pow_right (by omega) (by omega))
    have e : BitVec.ofNat 32 (winVal (b :: l)) = (if b then 1#32 else 0#32) ^^^ BitVec.ofNat 32 (2 * winVal l) := by
      apply BitVec.eq_of_toNat_eq
      rw [BitVec.toNat_xor, BitVec.toNat_ofNat, BitVec.toNat_ofNat, winVal]
      have hb := Bool.toNat_le b
      rw [Nat.mod_eq_of_lt (by omega), Nat.mod_eq_of_lt (by omega)]
      cases b
      · simp
      · simp only [Bool.toNat_true, if_true, BitVec.toNat_ofNat]
        have : 1 % 2 ^ 32 = 1 := by decide
        rw [this, Nat.xor_comm]
        apply Nat.eq_of_testBit_eq
        intro i
        rw [Nat.testBit_xor]
        cases i with
        | zero => simp [Nat.testBit_zero]
        | succ i =>
          have e1 : (1 + 2 * winVal l).testBit (i + 1) = (winVal l).testBit i := by
            rw [Nat.testBit_succ]; congr 1; omega
          have e2 : (2 * winVal l).testBit (i + 1) = (winVal l).testBit i := by
            rw [Nat.testBit_succ]; congr 1; omega
          have e3 : (1 : Nat).testBit (i + 1) = false := by simp [Nat.testBit_succ]
          rw [e1, e2, e3, Bool.xor_false]
    rw [e, ← BitVec.xor_assoc, crcShift_xor, crcShift_even _ hv]
    rfl

theorem iter_inj {α} {f : α → α} (hf : ∀ a b, f a = f b → a = b) : ∀ n {a b}, iter f n a = iter f n b → a = b := by
  intro n
  induction n with
  | zero => intro a b h; exact h
  | succ n ih => intro a b h; exact hf _ _ (ih h)

/-- Bit strings that differ only inside a window of at most 32 bits have different CRC
states. -/
theorem crc_burst (pre w w' post : List Bool) (s : BitVec 32) (hl : w.length = w'.length) (h32 : w.length ≤ 32)
    (h : (pre ++ w ++ post).foldl crcBit s = (pre ++ w' ++ post).foldl crcBit s) : w = w' := by
  simp only [List.foldl_append] at h
  have h1 := feed_inj post h
  rw [feed_window w _ h32, feed_window w' _ (by omega), ← hl] at h1
  have h2 := iter_inj (fun a b => crcShift_inj) _ h1
  have h3 : BitVec.ofNat 32 (winVal w) = BitVec.ofNat 32 (winVal w') := by
    have := congrArg (fun v => (pre.foldl crcBit s) ^^^ v) h2
    simpa [← BitVec.xor_assoc] using this
  have h4 := congrArg BitVec.toNat h3
  have hb : ∀ l : List Bool, l.length ≤ 32 → winVal l < 2 ^ 32 := fun l hl =>
    Nat.lt_of_lt_of_le (winVal_lt l) (Nat.pow_le_pow_right (by omega) hl)
  rw [BitVec.toNat_ofNat, BitVec.toNat_ofNat, Nat.mod_eq_of_lt (hb w h32), Nat.mod_eq_of_lt (hb w' (by omega))] at h4
  exact winVal_inj hl h4

theorem crc32_lt (bs : Bytes) : crc32 bs < 2 ^ 32 := BitVec.isLt _

end Cardano.Byron
