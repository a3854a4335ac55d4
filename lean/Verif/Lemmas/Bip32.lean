import Verif.Model.Bip32
import Verif.Spec.Bip32
import Mathlib.Tactic.Ring

namespace Cardano.Bip32

open Cardano Cardano.Ed Cardano.Spec.Bip32

theorem leNat_zeros (n : Nat) : leNat (List.replicate n 0) = 0 := by
  induction n with
  | zero => rfl
  | succ n ih => simp [List.replicate_succ, leNat, ih]

theorem leNat_append_zeros (a : Bytes) (n : Nat) : leNat (a ++ List.replicate n 0) = leNat a := by
  rw [leNat_append, leNat_zeros]; simp

theorem reduceModL_eq (s : Bytes) : leNat (reduceModL s) = leNat s % ellL := by
  unfold reduceModL scalarReduce
  rw [leNat_append_zeros, leNat_le32 (Nat.lt_trans (mod_ell_lt _) (by decide))]

theorem reduceModL_length (s : Bytes) : (reduceModL s).length = 32 := le32_length _

theorem baseMul_reduced (C : Curve) (s : Bytes) (n : Nat) (h : leNat s = n % ellL) :
    baseMul C s = (C.enc (n • C.B), decide (¬ ellL ∣ n)) := by
  have hlt : leNat s < 2 ^ 255 := by rw [h]; exact Nat.lt_trans (mod_ell_lt _) (by decide)
  unfold baseMul
  have h1 : (leNat s % 2 ^ 255) • C.B = n • C.B := by
    rw [Nat.mod_eq_of_lt hlt, h, mod_ell_smul]
  simp only [h1]
  congr 1
  by_cases hd : ellL ∣ n
  · have : n • C.B = 0 := (C.order n).mpr hd
    simp [this, hd]
  · have h0 : n • C.B ≠ 0 := fun h => hd ((C.order n).mp h)
    have h2 : C.enc (n • C.B) ≠ C.enc 0 := fun h => h0 (C.enc_inj h)
    have h3 : leNat s ≠ 0 := by rw [h]; exact fun h => hd (Nat.dvd_of_mod_eq_zero h)
    simp [h2, h3, hd]

/-- `bip32_ed25519_publickey`: `[kL]B`, or failure when `kL` is a multiple of the order. -/
theorem publickey_eq (C : Curve) (key : Bytes) :
    publickey C key = if ellL ∣ kL key then .throw .runtimeError else .ok (C.enc (kL key • C.B)) := by
  unfold publickey
  rw [baseMul_reduced C _ (kL key) (reduceModL_eq _)]
  by_cases h : ellL ∣ kL key <;> simp [h]

theorem publicKey_ok {C : Curve} {k : Prv} {p : Pub} (h : k.publicKey C = .ok p) :
    ¬ ellL ∣ kL k.key ∧ p = ⟨C.enc (kL k.key • C.B), k.cc⟩ := by
  unfold Prv.publicKey at h
  rw [publickey_eq] at h
  by_cases hd : ellL ∣ kL k.key
  · simp [hd] at h
  · simp only [hd, if_false, Out.ok_bind, Out.pure_eq, Out.ok.injEq] at h
    exact ⟨hd, h.symm⟩

theorem publicKey_of {C : Curve} {k : Prv} (h : ¬ ellL ∣ kL k.key) :
    k.publicKey C = .ok ⟨C.enc (kL k.key • C.B), k.cc⟩ := by
  unfold Prv.publicKey
  rw [publickey_eq]
  simp [h]

/-! ### byte arithmetic -/

theorem mul8_length (m : Nat) : ∀ (z : Bytes) (p : Nat), (mul8 m z p).length = z.length := by
  intro z
  induction z with
  | nil => intro p; rfl
  | cons b bs ih => intro p; simp [mul8, ih]

theorem and7 (n : Nat) : n &&& 7 = n % 8 := by
  have := Nat.and_two_pow_sub_one_eq_mod n 3
  simpa using this

theorem mul8_7 : ∀ (z : Bytes) (p : Nat), p < 8 → z ≠ [] →
    leNat (mul8 7 z p) + 256 ^ z.length * ((z.getLast?.getD 0).toNat >>> 5) = 8 * leNat z + p := by
  intro z
  induction z with
  | nil => intro p _ h; exact absurd rfl h
  | cons b bs ih =>
    intro p hp _
    have hb : b.toNat < 256 := b.toNat_lt
    have hval : (UInt8.ofNat ((b.toNat <<< 3) + (p &&& 7))).toNat = (8 * b.toNat + p) % 256 := by
      rw [UInt8.toNat_ofNat', and7, Nat.mod_eq_of_lt hp, Nat.shiftLeft_eq]; congr 1; omega
    have hsh : b.toNat >>> 5 = b.toNat / 32 := Nat.shiftRight_eq_div_pow _ 5
    cases bs with
    | nil =>
      simp only [mul8, leNat, hval, List.length_cons, List.length_nil, List.getLast?_singleton, Option.getD_some, hsh]
      omega
    | cons c cs =>
      have h := ih (b.toNat >>> 5) (by rw [hsh]; omega) (by simp)
      rw [mul8, leNat, leNat, hval]
      rw [List.getLast?_cons_cons]
      rw [hsh] at h ⊢
      have hl : (b :: c :: cs).length = (c :: cs).length + 1 := rfl
      rw [hl, Nat.pow_succ]
      have e1 : 256 ^ (c :: cs).length * 256 * (((c :: cs).getLast?.getD 0).toNat >>> 5)
          = 256 * (256 ^ (c :: cs).length * (((c :: cs).getLast?.getD 0).toNat >>> 5)) := by ring
      rw [e1]
      omega

theorem take28_last (z : Bytes) (h : 28 ≤ z.length) : (z.take 28).getLast?.getD 0 = z.getD 27 0 := by
  rw [List.getLast?_eq_getElem?, List.length_take, Nat.min_eq_left h, List.getElem?_take]
  simp [List.getD_eq_getElem?_getD]

theorem zl8_length (mode : Mode) (z : Bytes) (h : z.length = 64) : (zl8 mode z).length = 64 := by
  cases mode <;> simp [zl8, mul8_length, h]

theorem zl8_v2 (z : Bytes) (h : z.length = 64) : leNat ((zl8 .v2 z).take 32) = 8 * leNat (z.take 28) := by
  have hl : (mul8 0x7 (z.take 28) 0 ++ [UInt8.ofNat ((z.getD 27 0).toNat >>> 5)]).length = 29 := by
    simp [mul8_length, h]
  have ht : (zl8 .v2 z).take 32 = mul8 0x7 (z.take 28) 0 ++ [UInt8.ofNat ((z.getD 27 0).toNat >>> 5)] ++ List.replicate 3 0 := by
    simp only [zl8]
    rw [List.take_append, List.take_of_length_le (by rw [hl]; decide), hl]
    rfl
  rw [ht, leNat_append_zeros, leNat_append, mul8_length]
  have hne : z.take 28 ≠ [] := by
    intro h0; have := congrArg List.length h0; simp [h] at this
  have h7 := mul8_7 (z.take 28) 0 (by decide) hne
  rw [take28_last z (by omega)] at h7
  have hb : (UInt8.ofNat ((z.getD 27 0).toNat >>> 5)).toNat = (z.getD 27 0).toNat >>> 5 := by
    rw [UInt8.toNat_ofNat']
    apply Nat.mod_eq_of_lt
    exact Nat.lt_of_le_of_lt (Nat.shiftRight_le _ _) (z.getD 27 0).toNat_lt
  simp only [leNat, hb]
  simpa using h7

theorem addCarry_length : ∀ (a b : Bytes) (r : Nat), a.length = b.length → (addCarry a b r).length = a.length := by
  intro a
  induction a with
  | nil => intro b r _; cases b <;> rfl
  | cons x xs ih =>
    intro b r h
    cases b with
    | nil => simp at h
    | cons y ys => simp [addCarry, ih ys _ (by simpa using h)]

theorem addCarry_eq : ∀ (a b : Bytes) (r : Nat), a.length = b.length →
    leNat (addCarry a b r) = (leNat a + leNat b + r) % 256 ^ a.length := by
  intro a
  induction a with
  | nil => intro b r h; cases b <;> simp_all [addCarry, leNat, Nat.mod_one]
  | cons x xs ih =>
    intro b r h
    cases b with
    | nil => simp at h
    | cons y ys =>
      rw [addCarry, leNat, ih ys _ (by simpa using h), leNat, leNat, List.length_cons, Nat.pow_succ, Nat.mul_comm (256 ^ xs.length),
        Nat.mod_mul]
      rw [UInt8.toNat_ofNat', Nat.shiftRight_eq_div_pow]
      have e1 : (x.toNat + 256 * leNat xs + (y.toNat + 256 * leNat ys) + r) % 256 = (x.toNat + y.toNat + r) % 256 := by omega
      have e2 : (x.toNat + 256 * leNat xs + (y.toNat + 256 * leNat ys) + r) / 256 = leNat xs + leNat ys + (x.toNat + y.toNat + r) / 2 ^ 8 := by omega
      rw [e1, e2]

/-! ### index bytes -/

theorem isHardened_iff (i : UInt32) : isHardened i = true ↔ 2 ^ 31 ≤ i.toNat := by
  unfold isHardened
  have h : (i &&& 0x80000000 != 0) = decide (2 ^ 31 ≤ i.toNat) := by
    rw [Bool.eq_iff_iff, decide_eq_true_iff, bne_iff_ne]
    have e : i &&& 0x80000000 = 0 ↔ (i &&& 0x80000000).toNat = 0 := by
      rw [← UInt32.toNat_inj]; rfl
    rw [Ne, e, UInt32.toNat_and]
    have e2 : i.toNat &&& (0x80000000 : UInt32).toNat = 2 ^ 31 * (i.toNat / 2 ^ 31 % 2) := by
      have h31 : (0x80000000 : UInt32).toNat = 2 ^ 31 := rfl
      rw [h31]
      apply Nat.eq_of_testBit_eq
      intro j
      rw [Nat.testBit_and, Nat.testBit_two_pow, Nat.testBit_two_pow_mul]
      by_cases hj : j = 31
      · subst hj; simp [Nat.testBit_eq_decide_div_mod_eq]
      · by_cases hj2 : 31 ≤ j
        · have : (i.toNat / 2 ^ 31 % 2).testBit (j - 31) = false :=
            Nat.testBit_lt_two_pow (Nat.lt_of_lt_of_le (Nat.mod_lt _ (by decide)) (by
              calc 2 = 2 ^ 1 := rfl
                _ ≤ 2 ^ (j - 31) := Nat.pow_le_pow_right (by decide) (by omega)))
          rw [this]; simp [Ne.symm hj]
        · simp [hj2, Ne.symm hj]
    rw [e2]
    have := i.toNat_lt
    omega
  rw [h, decide_eq_true_iff]

theorem serializeIndex_length (i : UInt32) (m : Mode) : (serializeIndex i m).length = 4 := by
  cases m <;> rfl

theorem serializeIndex_v2 (i : UInt32) : leNat (serializeIndex i .v2) = i.toNat := by
  simp only [serializeIndex, leNat, UInt32.toNat_toUInt8, UInt32.toNat_shiftRight, Nat.shiftRight_eq_div_pow]
  have h8 : (8 : UInt32).toNat % 32 = 8 := rfl
  have h16 : (16 : UInt32).toNat % 32 = 16 := rfl
  have h24 : (24 : UInt32).toNat % 32 = 24 := rfl
  rw [h8, h16, h24]
  have := i.toNat_lt
  omega

theorem serializeIndex_v1 (i : UInt32) : serializeIndex i .v1 = (serializeIndex i .v2).reverse := rfl

end Cardano.Bip32
