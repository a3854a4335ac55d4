import Verif.Model.Mnemonic
import Verif.Spec.Mnemonic
import Verif.Lemmas.Bits

namespace Cardano.Mnemonic

open Cardano

theorem bitsBE_eq (w n : Nat) : Spec.Bip39.bitsBE w n = toBits w n := by
  induction w with
  | zero => rfl
  | succ w ih => simp only [Spec.Bip39.bitsBE, toBits, ih, Nat.testBit_eq_decide_div_mod_eq]

theorem byteBits_cons (b : UInt8) (bs : Bytes) :
    Spec.Bip39.byteBits (b :: bs) = toBits 8 b.toNat ++ Spec.Bip39.byteBits bs := by
  simp [Spec.Bip39.byteBits, bitsBE_eq]

theorem byteBits_append (a b : Bytes) :
    Spec.Bip39.byteBits (a ++ b) = Spec.Bip39.byteBits a ++ Spec.Bip39.byteBits b := by
  simp [Spec.Bip39.byteBits]

theorem byteBits_length (a : Bytes) : (Spec.Bip39.byteBits a).length = 8 * a.length := by
  induction a with
  | nil => rfl
  | cons b bs ih => rw [byteBits_cons, List.length_append, ih, toBits_length, List.length_cons]; omega

theorem wordBits_cons (b : Nat) (bs : List Nat) :
    Spec.Bip39.wordBits (b :: bs) = toBits 11 b ++ Spec.Bip39.wordBits bs := by
  simp [Spec.Bip39.wordBits, bitsBE_eq]

theorem wordBits_length (a : List Nat) : (Spec.Bip39.wordBits a).length = 11 * a.length := by
  induction a with
  | nil => rfl
  | cons b bs ih => rw [wordBits_cons, List.length_append, ih, toBits_length, List.length_cons]; omega

theorem byteBits_inj {a b : Bytes} (h : Spec.Bip39.byteBits a = Spec.Bip39.byteBits b) : a = b := by
  have hl : a.length = b.length := by
    have := congrArg List.length h
    rw [byteBits_length, byteBits_length] at this; omega
  induction a generalizing b with
  | nil => cases b with
    | nil => rfl
    | cons _ _ => simp at hl
  | cons x xs ih => cases b with
    | nil => simp at hl
    | cons y ys =>
      rw [byteBits_cons, byteBits_cons] at h
      have h2 := List.append_inj h (by simp)
      have hxy : x.toNat = y.toNat := toBits_inj_lt x.toNat_lt y.toNat_lt h2.1
      rw [UInt8.toNat_inj.mp hxy, ih h2.2 (by simpa using hl)]

theorem wordBits_inj {a b : List Nat} (ha : ∀ w ∈ a, w < 2048) (hb : ∀ w ∈ b, w < 2048)
    (h : Spec.Bip39.wordBits a = Spec.Bip39.wordBits b) : a = b := by
  have hl : a.length = b.length := by
    have := congrArg List.length h
    rw [wordBits_length, wordBits_length] at this; omega
  induction a generalizing b with
  | nil => cases b with
    | nil => rfl
    | cons _ _ => simp at hl
  | cons x xs ih => cases b with
    | nil => simp at hl
    | cons y ys =>
      rw [wordBits_cons, wordBits_cons] at h
      have h2 := List.append_inj h (by simp)
      have hxy : x = y := toBits_inj_lt (w := 11) (by simpa using ha x (by simp)) (by simpa using hb y (by simp)) h2.1
      rw [hxy, ih (fun w hw => ha w (by simp [hw])) (fun w hw => hb w (by simp [hw])) h2.2 (by simpa using hl)]

/-! ### `generate` -/

theorem shl_small {c k m : Nat} (hc : c < 2 ^ k) (hk : k ≤ m) (hm : m ≤ 16) : u16 (c <<< (m - k)) = c <<< (m - k) := by
  unfold u16
  apply Nat.mod_eq_of_lt
  rw [Nat.shiftLeft_eq]
  calc c * 2 ^ (m - k) < 2 ^ k * 2 ^ (m - k) := by
        exact Nat.mul_lt_mul_of_pos_right hc (Nat.two_pow_pos _)
    _ = 2 ^ m := by rw [← Nat.pow_add]; congr 1; omega
    _ ≤ 65536 := by
        have : 2 ^ m ≤ 2 ^ 16 := Nat.pow_le_pow_right (by decide) hm
        simpa using this

theorem genBits1 (c b n : Nat) (hc : c < 2 ^ (n + 3)) (hb : b < 256) (hn : n < 5) :
    toBits (n + 3) c ++ toBits 8 b =
      toBits 11 (((c <<< (11 - (n + 3))) ||| (if 11 - (n + 3) ≥ 8 then u16 (b <<< (11 - (n + 3) - 8)) else b >>> (8 - (11 - (n + 3))))) &&& 0x7FF)
        ++ toBits n (b &&& (255 >>> (8 - n))) := by
  have hcb : ∀ i, n + 3 ≤ i → c.testBit i = false := fun i hi =>
    Nat.testBit_lt_two_pow (Nat.lt_of_lt_of_le hc (Nat.pow_le_pow_right (by decide) hi))
  have hbb : ∀ i, 8 ≤ i → b.testBit i = false := fun i hi =>
    Nat.testBit_lt_two_pow (Nat.lt_of_lt_of_le (show b < 2 ^ 8 from hb) (Nat.pow_le_pow_right (by decide) hi))
  have hu : u16 b = b := Nat.mod_eq_of_lt (by omega)
  have h5 : n = 0 ∨ n = 1 ∨ n = 2 ∨ n = 3 ∨ n = 4 := by omega
  rcases h5 with rfl | rfl | rfl | rfl | rfl <;>
  simp [toBits, Nat.testBit_or, Nat.testBit_and, Nat.testBit_shiftLeft, Nat.testBit_shiftRight, hbb, hu,
    hcb, show ∀ i, Nat.testBit 2047 i = decide (i < 11) from fun i => Nat.testBit_two_pow_sub_one 11 i,
    show ∀ i, Nat.testBit 1 i = decide (i < 1) from fun i => Nat.testBit_two_pow_sub_one 1 i,
    show ∀ i, Nat.testBit 3 i = decide (i < 2) from fun i => Nat.testBit_two_pow_sub_one 2 i,
    show ∀ i, Nat.testBit 7 i = decide (i < 3) from fun i => Nat.testBit_two_pow_sub_one 3 i,
    show ∀ i, Nat.testBit 15 i = decide (i < 4) from fun i => Nat.testBit_two_pow_sub_one 4 i]

theorem genBits2 (c b b' n : Nat) (hc : c < 2 ^ n) (hb : b < 256) (hb' : b' < 256) (hn : n < 3) :
    toBits n c ++ (toBits 8 b ++ toBits 8 b') =
      toBits 11 (((c <<< (11 - n)) ||| (b <<< (11 - n - 8)) ||| (b' >>> (8 - (11 - (n + 8))))) &&& 0x7FF)
        ++ toBits (n + 5) (b' &&& (255 >>> (8 - (n + 5)))) := by
  have hcb : ∀ i, n ≤ i → c.testBit i = false := fun i hi =>
    Nat.testBit_lt_two_pow (Nat.lt_of_lt_of_le hc (Nat.pow_le_pow_right (by decide) hi))
  have hbb : ∀ i, 8 ≤ i → b.testBit i = false := fun i hi =>
    Nat.testBit_lt_two_pow (Nat.lt_of_lt_of_le (show b < 2 ^ 8 from hb) (Nat.pow_le_pow_right (by decide) hi))
  have hbb' : ∀ i, 8 ≤ i → b'.testBit i = false := fun i hi =>
    Nat.testBit_lt_two_pow (Nat.lt_of_lt_of_le (show b' < 2 ^ 8 from hb') (Nat.pow_le_pow_right (by decide) hi))
  have h5 : n = 0 ∨ n = 1 ∨ n = 2 := by omega
  rcases h5 with rfl | rfl | rfl <;>
  simp [toBits, Nat.testBit_or, Nat.testBit_and, Nat.testBit_shiftLeft, Nat.testBit_shiftRight, hbb, hbb',
    hcb, show ∀ i, Nat.testBit 2047 i = decide (i < 11) from fun i => Nat.testBit_two_pow_sub_one 11 i,
    show ∀ i, Nat.testBit 31 i = decide (i < 5) from fun i => Nat.testBit_two_pow_sub_one 5 i,
    show ∀ i, Nat.testBit 63 i = decide (i < 6) from fun i => Nat.testBit_two_pow_sub_one 6 i,
    show ∀ i, Nat.testBit 127 i = decide (i < 7) from fun i => Nat.testBit_two_pow_sub_one 7 i]

theorem mask_lt (b n : Nat) (hn : n ≤ 8) : b &&& (255 >>> (8 - n)) < 2 ^ n := by
  have h : 255 >>> (8 - n) = 2 ^ n - 1 := by
    have : ∀ n, n ≤ 8 → 255 >>> (8 - n) = 2 ^ n - 1 := by decide
    exact this n hn
  rw [h, Nat.and_two_pow_sub_one_eq_mod]
  exact Nat.mod_lt _ (Nat.two_pow_pos n)

theorem and_7ff_lt (w : Nat) : w &&& 0x7FF < 2048 := by
  have : w &&& (2 ^ 11 - 1) = w % 2 ^ 11 := Nat.and_two_pow_sub_one_eq_mod w 11
  simp only [show (0x7FF : Nat) = 2 ^ 11 - 1 by rfl]
  rw [this]; exact Nat.mod_lt _ (by decide)

theorem genInner1 (pre rest : Bytes) (b : UInt8) (n word : Nat) (h3 : 3 ≤ n) (h8 : n < 8) :
    genInner (pre ++ b :: rest) n word pre.length =
      .ok (n + 8, word ||| (if 11 - n ≥ 8 then u16 (b.toNat <<< (11 - n - 8)) else b.toNat >>> (8 - (11 - n))), pre.length + 1) := by
  rw [genInner, if_pos (by omega)]
  simp only [List.getElem?_append_right (Nat.le_refl _), Nat.sub_self, List.getElem?_cons_zero]
  rw [genInner, if_neg (by omega)]

theorem genInner2 (pre rest : Bytes) (b b' : UInt8) (n word : Nat) (h3 : n < 3) :
    genInner (pre ++ b :: b' :: rest) n word pre.length =
      .ok (n + 16, word ||| (b.toNat <<< (11 - n - 8)) ||| (b'.toNat >>> (8 - (11 - (n + 8)))), pre.length + 2) := by
  have hu : u16 (b.toNat <<< (11 - n - 8)) = b.toNat <<< (11 - n - 8) := by
    have := shl_small (c := b.toNat) (k := 8) (m := 11 - n) b.toNat_lt (by omega) (by omega)
    simpa using this
  rw [genInner, if_pos (by omega)]
  simp only [List.getElem?_append_right (Nat.le_refl _), Nat.sub_self, List.getElem?_cons_zero]
  rw [genInner, if_pos (by omega)]
  have : (pre ++ b :: b' :: rest)[pre.length + 1]? = some b' := by
    rw [List.getElem?_append_right (by omega)]; simp
  simp only [this]
  rw [genInner, if_neg (by omega), if_pos (by omega), if_neg (by omega), hu]

theorem take_left {α} {a l : List α} {k m : Nat} (h : a.length = k) : (a ++ l).take (k + m) = a ++ l.take m := by
  subst h; rw [List.take_length_add_append]

theorem genLoop_spec : ∀ (n : Nat) (pre rest : Bytes) (carry nCarry : Nat), nCarry < 8 →
    carry < 2 ^ nCarry → 11 * n ≤ nCarry + 8 * rest.length →
    ∃ ws, genLoop (pre ++ rest) n pre.length carry nCarry = .ok ws ∧ ws.length = n ∧
      (∀ w ∈ ws, w < 2048) ∧
      Spec.Bip39.wordBits ws = (toBits nCarry carry ++ Spec.Bip39.byteBits rest).take (11 * n) := by
  intro n
  induction n with
  | zero => intro pre rest carry nCarry _ _ _; exact ⟨[], rfl, rfl, by simp, by simp [Spec.Bip39.wordBits]⟩
  | succ n ih =>
    intro pre rest carry nCarry h8 hc hlen
    rw [genLoop, shl_small hc (by omega) (by omega)]
    by_cases h3 : 3 ≤ nCarry
    · match rest, hlen with
      | [], hlen => simp at hlen; omega
      | b :: r, hlen =>
        rw [genInner1 _ _ _ _ _ h3 h8]
        have hget : (pre ++ b :: r)[pre.length + 1 - 1]? = some b := by simp
        simp only [Out.ok_bind, hget]
        obtain ⟨k, rfl⟩ : ∃ k, nCarry = k + 3 := ⟨nCarry - 3, by omega⟩
        rw [show k + 3 + 8 - 11 = k by omega]
        have hkc := mask_lt b.toNat k (by omega)
        obtain ⟨ws, h1, h2, h3', h4⟩ := ih (pre ++ [b]) r _ k (by omega) hkc (by simp at hlen; omega)
        rw [show pre ++ b :: r = pre ++ [b] ++ r by simp, show pre.length + 1 = (pre ++ [b]).length by simp, h1]
        refine ⟨_, rfl, by simp [h2], ?_, ?_⟩
        · intro w hw
          rcases List.mem_cons.mp hw with rfl | hw
          · exact and_7ff_lt _
          · exact h3' w hw
        · rw [wordBits_cons, h4, byteBits_cons, ← List.append_assoc, genBits1 carry b.toNat k hc b.toNat_lt (by omega)]
          simp only [List.append_assoc]
          rw [show 11 * (n + 1) = 11 + 11 * n by omega, take_left (toBits_length _ _)]
    · match rest, hlen with
      | [], hlen => simp at hlen; omega
      | [b], hlen => simp at hlen; omega
      | b :: b' :: r, hlen =>
        rw [genInner2 _ _ _ _ _ _ (by omega)]
        have hget : (pre ++ b :: b' :: r)[pre.length + 2 - 1]? = some b' := by
          rw [List.getElem?_append_right (by omega)]; simp
        simp only [Out.ok_bind, hget]
        rw [show nCarry + 16 - 11 = nCarry + 5 by omega]
        have hkc := mask_lt b'.toNat (nCarry + 5) (by omega)
        obtain ⟨ws, h1, h2, h3', h4⟩ := ih (pre ++ [b, b']) r _ (nCarry + 5) (by omega) hkc (by simp at hlen; omega)
        rw [show pre ++ b :: b' :: r = pre ++ [b, b'] ++ r by simp, show pre.length + 2 = (pre ++ [b, b']).length by simp, h1]
        refine ⟨_, rfl, by simp [h2], ?_, ?_⟩
        · intro w hw
          rcases List.mem_cons.mp hw with rfl | hw
          · exact and_7ff_lt _
          · exact h3' w hw
        · rw [wordBits_cons, h4, byteBits_cons, byteBits_cons, ← List.append_assoc (toBits 8 _), ← List.append_assoc,
            genBits2 carry b.toNat b'.toNat nCarry hc b.toNat_lt b'.toNat_lt (by omega)]
          simp only [List.append_assoc]
          rw [show 11 * (n + 1) = 11 + 11 * n by omega, take_left (toBits_length _ _)]

/-! ### `toEntropy` -/

theorem entBits1 (c w n : Nat) (hc : c < 2 ^ n) (hw : w < 2048) (hn : n < 6) :
    toBits n c ++ toBits 11 w =
      toBits 8 (u8 (c <<< (8 - n)) ||| u8 (w >>> (3 + n)))
        ++ toBits (n + 3) (u8 ((w &&& 0x7FF) &&& (0xFFFF >>> (16 - (n + 3))))) := by
  have hcb : ∀ i, n ≤ i → c.testBit i = false := fun i hi =>
    Nat.testBit_lt_two_pow (Nat.lt_of_lt_of_le hc (Nat.pow_le_pow_right (by decide) hi))
  have hwb : ∀ i, 11 ≤ i → w.testBit i = false := fun i hi =>
    Nat.testBit_lt_two_pow (Nat.lt_of_lt_of_le (show w < 2 ^ 11 from hw) (Nat.pow_le_pow_right (by decide) hi))
  have h5 : n = 0 ∨ n = 1 ∨ n = 2 ∨ n = 3 ∨ n = 4 ∨ n = 5 := by omega
  unfold u8
  simp only [show (256 : Nat) = 2 ^ 8 by rfl]
  rcases h5 with rfl | rfl | rfl | rfl | rfl | rfl <;>
  simp [-Nat.reducePow, toBits, Nat.testBit_mod_two_pow, Nat.testBit_or, Nat.testBit_and, Nat.testBit_shiftLeft, Nat.testBit_shiftRight, hwb,
    hcb, show ∀ i, Nat.testBit 2047 i = decide (i < 11) from fun i => Nat.testBit_two_pow_sub_one 11 i,
    show ∀ i, Nat.testBit 7 i = decide (i < 3) from fun i => Nat.testBit_two_pow_sub_one 3 i,
    show ∀ i, Nat.testBit 15 i = decide (i < 4) from fun i => Nat.testBit_two_pow_sub_one 4 i,
    show ∀ i, Nat.testBit 31 i = decide (i < 5) from fun i => Nat.testBit_two_pow_sub_one 5 i,
    show ∀ i, Nat.testBit 63 i = decide (i < 6) from fun i => Nat.testBit_two_pow_sub_one 6 i,
    show ∀ i, Nat.testBit 127 i = decide (i < 7) from fun i => Nat.testBit_two_pow_sub_one 7 i,
    show ∀ i, Nat.testBit 255 i = decide (i < 8) from fun i => Nat.testBit_two_pow_sub_one 8 i]

theorem entBits2 (c w n : Nat) (hc : c < 2 ^ (n + 5)) (hw : w < 2048) (hn : n < 3) :
    toBits (n + 5) c ++ toBits 11 w =
      toBits 8 (u8 (c <<< (8 - (n + 5))) ||| u8 (w >>> (3 + (n + 5))))
        ++ (toBits 8 (u8 ((w &&& 0x7FF) >>> n))
        ++ toBits n (u8 ((w &&& 0x7FF) &&& (0xFFFF >>> (16 - n))))) := by
  have hcb : ∀ i, n + 5 ≤ i → c.testBit i = false := fun i hi =>
    Nat.testBit_lt_two_pow (Nat.lt_of_lt_of_le hc (Nat.pow_le_pow_right (by decide) hi))
  have hwb : ∀ i, 11 ≤ i → w.testBit i = false := fun i hi =>
    Nat.testBit_lt_two_pow (Nat.lt_of_lt_of_le (show w < 2 ^ 11 from hw) (Nat.pow_le_pow_right (by decide) hi))
  have h5 : n = 0 ∨ n = 1 ∨ n = 2 := by omega
  unfold u8
  simp only [show (256 : Nat) = 2 ^ 8 by rfl]
  rcases h5 with rfl | rfl | rfl <;>
  simp [-Nat.reducePow, toBits, Nat.testBit_mod_two_pow, Nat.testBit_or, Nat.testBit_and, Nat.testBit_shiftLeft, Nat.testBit_shiftRight, hwb,
    hcb, show ∀ i, Nat.testBit 2047 i = decide (i < 11) from fun i => Nat.testBit_two_pow_sub_one 11 i,
    show ∀ i, Nat.testBit 1 i = decide (i < 1) from fun i => Nat.testBit_two_pow_sub_one 1 i,
    show ∀ i, Nat.testBit 3 i = decide (i < 2) from fun i => Nat.testBit_two_pow_sub_one 2 i]

theorem ffff_mask (x n : Nat) (hn : n ≤ 8) : u8 (x &&& (0xFFFF >>> (16 - n))) < 2 ^ n := by
  have h : 0xFFFF >>> (16 - n) = 2 ^ n - 1 := by
    have : ∀ n, n ≤ 8 → 0xFFFF >>> (16 - n) = 2 ^ n - 1 := by decide
    exact this n hn
  rw [h, Nat.and_two_pow_sub_one_eq_mod]
  exact Nat.lt_of_le_of_lt (Nat.mod_le _ _) (Nat.mod_lt _ (Nat.two_pow_pos n))

theorem u8_lt (n : Nat) : u8 n < 256 := Nat.mod_lt _ (by decide)

theorem or_u8_lt (a b : Nat) : u8 a ||| u8 b < 256 :=
  Nat.or_lt_two_pow (n := 8) (u8_lt a) (u8_lt b)

theorem ofNat_bits {n : Nat} (h : n < 256) : toBits 8 (UInt8.ofNat n).toNat = toBits 8 n := by
  rw [UInt8.toNat_ofNat', Nat.mod_eq_of_lt h]

theorem toEntLoop_spec (k : Nat) (hk3 : 3 ≤ k) (hk8 : k ≤ 8) : ∀ (ws : List Nat) (out : Bytes) (carry nCarry : Nat),
    ws ≠ [] → nCarry < 8 → carry < 2 ^ nCarry → (∀ w ∈ ws, w < 2048) →
    8 * out.length + nCarry + 11 * ws.length = 33 * k →
    ∃ out' carry', toEntLoop (k * 4) ws out carry nCarry = .ok (out', carry') ∧ out'.length = 4 * k ∧
      carry' < 2 ^ k ∧
      Spec.Bip39.byteBits out ++ toBits nCarry carry ++ Spec.Bip39.wordBits ws =
        Spec.Bip39.byteBits out' ++ toBits k carry' := by
  intro ws
  induction ws with
  | nil => intro _ _ _ h; exact absurd rfl h
  | cons w ws ih =>
    intro out carry nCarry _ h8 hc hw hlen
    have hw0 : w < 2048 := hw w (by simp)
    rw [toEntLoop, toEntStep]
    rw [if_pos (by simp at hlen; omega)]
    simp only [List.length_append, List.length_singleton, show 11 - (8 - nCarry) = nCarry + 3 by omega]
    cases ws with
    | nil =>
      have hk : nCarry + 3 = k := by simp at hlen; omega
      rw [if_neg (by simp at hlen; omega)]
      refine ⟨_, _, rfl, by simp at hlen ⊢; omega, by rw [← hk]; exact ffff_mask _ _ (by omega), ?_⟩
      rw [List.append_assoc, show Spec.Bip39.wordBits [w] = toBits 11 w by simp [Spec.Bip39.wordBits, bitsBE_eq],
        entBits1 carry w nCarry hc hw0 (by omega), byteBits_append, byteBits_cons, ofNat_bits (or_u8_lt _ _), hk]
      simp [Spec.Bip39.byteBits]
    | cons w' ws =>
      by_cases h5 : nCarry < 5
      · rw [if_neg (by omega)]
        simp only [Out.ok_bind]
        obtain ⟨o', c', e1, e2, e3, e4⟩ := ih (out ++ [UInt8.ofNat (u8 (carry <<< (8 - nCarry)) ||| u8 (w >>> (3 + nCarry)))])
          (u8 ((w &&& 0x7FF) &&& (0xFFFF >>> (16 - (nCarry + 3))))) (nCarry + 3) (by simp) (by omega)
          (ffff_mask _ _ (by omega)) (fun x hx => hw x (by simp [hx])) (by simp at hlen ⊢; omega)
        refine ⟨o', c', e1, e2, e3, ?_⟩
        rw [← e4, byteBits_append, byteBits_cons, ofNat_bits (or_u8_lt _ _), wordBits_cons w]
        have := entBits1 carry w nCarry hc hw0 (by omega)
        rw [← List.append_assoc, List.append_assoc (Spec.Bip39.byteBits out), this]
        simp [Spec.Bip39.byteBits]
      · rw [if_pos (by simp at hlen; omega)]
        obtain ⟨n, rfl⟩ : ∃ n, nCarry = n + 5 := ⟨nCarry - 5, by omega⟩
        simp only [Out.ok_bind, show n + 5 + 3 - 8 = n by omega]
        obtain ⟨o', c', e1, e2, e3, e4⟩ := ih (out ++ [UInt8.ofNat (u8 (carry <<< (8 - (n + 5))) ||| u8 (w >>> (3 + (n + 5))))]
            ++ [UInt8.ofNat (u8 ((w &&& 0x7FF) >>> n))])
          (u8 ((w &&& 0x7FF) &&& (0xFFFF >>> (16 - n)))) n (by simp) (by omega)
          (ffff_mask _ _ (by omega)) (fun x hx => hw x (by simp [hx])) (by simp at hlen ⊢; omega)
        refine ⟨o', c', e1, e2, e3, ?_⟩
        rw [← e4, byteBits_append, byteBits_append, byteBits_cons, byteBits_cons, ofNat_bits (or_u8_lt _ _), ofNat_bits (u8_lt _), wordBits_cons w]
        have := entBits2 carry w n hc hw0 (by omega)
        rw [← List.append_assoc, List.append_assoc (Spec.Bip39.byteBits out), this]
        simp [Spec.Bip39.byteBits]

end Cardano.Mnemonic
