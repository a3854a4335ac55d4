import Verif.Spec.Crc32
import Verif.Props.Byron

namespace Cardano.Byron

theorem poly_reflect : ∀ i : Fin 32, (0xEDB88320#32).getLsbD i.val = (0x04C11DB7#32).getLsbD (31 - i.val) := by
  decide +kernel

theorem crcBit_reflect (s : BitVec 32) (b : Bool) : crcBit s.reverse b = (CrcSpec.step s b).reverse := by
  apply BitVec.eq_of_getLsbD_eq
  intro i hi
  have h0 : s.reverse.getLsbD 0 = s.getLsbD 31 := by
    rw [BitVec.getLsbD_reverse, BitVec.getMsbD]; rfl
  have hp := poly_reflect ⟨i, hi⟩
  simp only at hp
  have hsel : (s.reverse ^^^ (if b = true then 1#32 else 0#32)).getLsbD 0 = (s.getLsbD 31 != b) := by
    rw [BitVec.getLsbD_xor, h0]
    cases b <;> simp
  have hrev : ∀ x : BitVec 32, x.reverse.getLsbD i = x.getLsbD (31 - i) := by
    intro x
    rw [BitVec.getLsbD_reverse, BitVec.getMsbD]
    simp [hi]
  have hsh : ((s.reverse ^^^ (if b = true then 1#32 else 0#32)) >>> 1).getLsbD i = (s <<< 1).getLsbD (31 - i) := by
    rw [BitVec.getLsbD_ushiftRight, BitVec.getLsbD_xor, BitVec.getLsbD_shiftLeft, BitVec.getLsbD_reverse, BitVec.getMsbD]
    have h1 : (if b = true then 1#32 else 0#32).getLsbD (1 + i) = false := by
      cases b
      · simp
      · simp [BitVec.getLsbD_one]
    rw [h1, Bool.xor_false]
    by_cases h31 : i = 31
    · subst h31; simp
    · have : 1 + i < 32 := by omega
      simp only [this, decide_true, Bool.true_and, show (31 - i < 32) by omega, show ¬ (31 - i < 1) by omega, decide_false,
        Bool.not_false]
      congr 1
      omega
  unfold crcBit crcShift
  rw [hrev]
  unfold CrcSpec.step
  rw [hsel, BitVec.getLsbD_xor, BitVec.getLsbD_xor, hsh]
  congr 1
  cases (s.getLsbD 31 != b)
  · simp
  · simpa using hp

theorem fold_reflect (l : List Bool) : ∀ s : BitVec 32, l.foldl crcBit s.reverse = (l.foldl CrcSpec.step s).reverse := by
  induction l with
  | nil => intro s; rfl
  | cons b l ih => intro s; rw [List.foldl_cons, List.foldl_cons, crcBit_reflect, ih]

theorem bitsOf_spec (bs : Bytes) : bitsOf bs = CrcSpec.messageBits bs := by
  unfold bitsOf CrcSpec.messageBits
  congr 1
  funext b
  apply List.map_congr_left
  intro i _
  rw [Nat.testBit_eq_decide_div_mod_eq]

/-- **C15 (which checksum).** The checksum the address functions compute and compare is
CRC-32 as published. -/
theorem C15_crc32_standard (bs : Bytes) : crc32 bs = CrcSpec.crc32 bs := by
  unfold crc32 CrcSpec.crc32
  rw [← bitsOf_spec]
  have h : (0xFFFFFFFF#32).reverse = 0xFFFFFFFF#32 := by decide +kernel
  have := fold_reflect (bitsOf bs) 0xFFFFFFFF#32
  rw [h] at this
  rw [this]
  congr 1
  generalize ((bitsOf bs).foldl CrcSpec.step 0xFFFFFFFF#32).reverse = x
  rw [show (0xFFFFFFFF#32) = BitVec.allOnes 32 by decide, BitVec.xor_allOnes]

example : CrcSpec.crc32 (ascii "123456789") = 0xCBF43926 := by decide +kernel

end Cardano.Byron
