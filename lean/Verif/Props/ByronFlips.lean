import Verif.Props.Byron
import Verif.Lemmas.CrcOrder

/-! # C15: flipped bits in a Byron address -/

namespace Cardano.Byron

/-- The 32 bits of a checksum. -/
def crcBits (c : Nat) : List Bool := (List.range 32).map fun i => c.testBit i

/-- The protected bits of an address: payload and stored checksum. -/
def protectedBits (payload : Bytes) (crc : Nat) : List Bool := bitsOf payload ++ crcBits crc

/-- In how many places two bit strings of the same length differ. -/
def hamming (a b : List Bool) : Nat := (a.zip b).countP fun p => p.1 != p.2

theorem bitsOf_length (p : Bytes) : (bitsOf p).length = 8 * p.length := by
  induction p with
  | nil => rfl
  | cons b p ih =>
    have : bitsOf (b :: p) = ((List.range 8).map fun i => b.toNat.testBit i) ++ bitsOf p := by
      simp [bitsOf]
    rw [this, List.length_append, ih]
    simp; omega

theorem hamming_diff (a b : List Bool) : hamming a b = weight (diff a b) := by
  unfold hamming weight diff
  induction a generalizing b with
  | nil => rfl
  | cons x a ih =>
    cases b with
    | nil => rfl
    | cons y b => simp only [List.zip_cons_cons, List.zipWith_cons_cons, List.countP_cons, ih]

theorem diff_append {a a' b b' : List Bool} (h : a.length = a'.length) : diff (a ++ b) (a' ++ b') = diff a a' ++ diff b b' := by
  unfold diff
  exact List.zipWith_append h

theorem diff_length {a b : List Bool} (h : a.length = b.length) : (diff a b).length = a.length := by
  simp [diff, h]

theorem winVal_testBit : ∀ (l : List Bool) (i : Nat), (winVal l).testBit i = l.getD i false := by
  intro l
  induction l with
  | nil => intro i; simp [winVal]
  | cons b l ih =>
    intro i
    rw [winVal]
    cases i with
    | zero => cases b <;> simp [Nat.testBit_zero]
    | succ i =>
      rw [Nat.testBit_succ]
      have : (b.toNat + 2 * winVal l) / 2 = winVal l := by
        have := Bool.toNat_le b; omega
      rw [this, ih]; simp

theorem winVal_diff {c c' : Nat} (h : c < 2 ^ 32) (h' : c' < 2 ^ 32) : winVal (diff (crcBits c) (crcBits c')) = c ^^^ c' := by
  apply Nat.eq_of_testBit_eq
  intro i
  rw [winVal_testBit, Nat.testBit_xor]
  have hl : ∀ c, (crcBits c).length = 32 := fun c => by simp [crcBits]
  by_cases hi : i < 32
  · have : (diff (crcBits c) (crcBits c'))[i]? = some (c.testBit i != c'.testBit i) := by
      simp [diff, crcBits, hi]
    rw [List.getD_eq_getElem?_getD, this]
    simp [bne]
  · have hp : 2 ^ 32 ≤ 2 ^ i := Nat.pow_le_pow_right (by decide) (by omega)
    rw [Nat.testBit_lt_two_pow (by omega), Nat.testBit_lt_two_pow (by omega)]
    rw [List.getD_eq_getElem?_getD, List.getElem?_eq_none (by rw [diff_length (by rw [hl, hl]), hl]; omega)]
    rfl

/-- Feeding the differences of payload and checksum gives zero if the changed checksum is right. -/
theorem feed_protected {p p' : Bytes} (hlen : p.length = p'.length) {c' : Nat} (hc' : c' < 2 ^ 32) (h : crc32 p' = c') :
    (diff (protectedBits p (crc32 p)) (protectedBits p' c')).foldl crcBit 0#32 = 0#32 := by
  have hl : (bitsOf p).length = (bitsOf p').length := by rw [bitsOf_length, bitsOf_length, hlen]
  have hd := feed_diff (bitsOf p) (bitsOf p') 0xFFFFFFFF#32 0xFFFFFFFF#32 hl
  rw [BitVec.xor_self] at hd
  unfold protectedBits
  have hcl : ∀ c, (crcBits c).length = 32 := fun c => by simp [crcBits]
  have hdl : (diff (crcBits (crc32 p)) (crcBits c')).length = 32 := by rw [diff_length (by rw [hcl, hcl]), hcl]
  rw [diff_append hl, List.foldl_append, ← hd, feed_window _ _ (by omega), winVal_diff (crc32_lt p) hc', ← h]
  have : (bitsOf p).foldl crcBit 0xFFFFFFFF#32 ^^^ (bitsOf p').foldl crcBit 0xFFFFFFFF#32 = BitVec.ofNat 32 (crc32 p ^^^ crc32 p') := by
    apply BitVec.eq_of_toNat_eq
    rw [BitVec.toNat_ofNat, Nat.mod_eq_of_lt (Nat.xor_lt_two_pow (crc32_lt p) (crc32_lt p')), BitVec.toNat_xor]
    unfold crc32
    rw [← BitVec.toNat_xor, ← BitVec.toNat_xor]
    congr 1
    generalize (bitsOf p).foldl crcBit 0xFFFFFFFF#32 = x
    generalize (bitsOf p').foldl crcBit 0xFFFFFFFF#32 = y
    generalize 0xFFFFFFFF#32 = z
    rw [show x ^^^ z ^^^ (y ^^^ z) = (x ^^^ y) ^^^ (z ^^^ z) by ac_rfl, BitVec.xor_self, BitVec.xor_zero]
  rw [this, BitVec.xor_self, iter_zero]

/-- **C15 (flipped bits are noticed).** Take an address made of a payload and its CRC-32 and flip
bits of the payload or of the stored checksum, anywhere: one to four bits if the payload has at
most 108 bytes (main net and test net addresses with a two-level path have about 80), one or two
bits for payloads of up to half a gigabyte.  The result is refused with
`invalid_argument`, whatever follows it. -/
theorem C15_flips_rejected (p p' : Bytes) (c' : Nat) (hlen : p.length = p'.length) (hc' : c' < 2 ^ 32)
    (h1 : 1 ≤ hamming (protectedBits p (crc32 p)) (protectedBits p' c'))
    (h : (p.length ≤ 108 ∧ hamming (protectedBits p (crc32 p)) (protectedBits p' c') ≤ 4) ∨
      (p.length ≤ 2 ^ 29 - 5 ∧ hamming (protectedBits p (crc32 p)) (protectedBits p' c') ≤ 2)) (rest : Bytes) :
    fromCBOR (wrap p' c' ++ rest) = .throw .invalidArgument := by
  have hcrc : crc32 p' ≠ c' := by
    intro he
    have hz := feed_protected hlen hc' he
    have hcl : ∀ c, (crcBits c).length = 32 := fun c => by simp [crcBits]
    have hl : (diff (protectedBits p (crc32 p)) (protectedBits p' c')).length = 8 * p.length + 32 := by
      rw [diff_length]
      · rw [protectedBits, List.length_append, bitsOf_length, hcl]
      · rw [protectedBits, protectedBits, List.length_append, List.length_append, bitsOf_length, bitsOf_length, hcl, hcl, hlen]
    rw [hamming_diff] at h1 h
    rcases h with ⟨g1, g2⟩ | ⟨g1, g2⟩
    · exact feed_weight _ (by omega) h1 g2 hz
    · exact feed_weight2 _ (by omega) h1 g2 hz
  have hp : p'.length < 2 ^ 64 := by omega
  have hb := fromCBORBody_wrap p' c' hp (by omega) rest (by rw [Nat.mod_eq_of_lt hc']; exact hcrc)
  unfold fromCBOR
  rw [hb]

-- the hypotheses: three bits of the payload and one of the checksum flipped
example : (1 ≤ hamming (protectedBits [1, 2, 3] (crc32 [1, 2, 3])) (protectedBits [0, 2, 0] (crc32 [1, 2, 3] ^^^ 64)) ∧
    hamming (protectedBits [1, 2, 3] (crc32 [1, 2, 3])) (protectedBits [0, 2, 0] (crc32 [1, 2, 3] ^^^ 64)) ≤ 4) := by decide +kernel

end Cardano.Byron
