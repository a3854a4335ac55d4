import Verif.Model.Basic

/-! # CRC-32 as published (ISO-HDLC / IEEE 802.3)

Width 32, polynomial 0x04C11DB7 in normal notation, initial value all ones, input and
output reflected, final complement. -/

namespace Cardano.CrcSpec

/-- One step of the division by the polynomial, most significant bit first. -/
def step (s : BitVec 32) (b : Bool) : BitVec 32 :=
  (s <<< 1) ^^^ (if (s.getLsbD 31) != b then 0x04C11DB7#32 else 0#32)

/-- Message bits: each byte's least significant bit first (reflected input). -/
def messageBits (bs : Bytes) : List Bool :=
  bs.flatMap fun b => (List.range 8).map fun i => decide (b.toNat / 2 ^ i % 2 = 1)

/-- The checksum (reflected output, complemented). -/
def crc32 (bs : Bytes) : Nat :=
  (~~~ ((messageBits bs).foldl step 0xFFFFFFFF#32).reverse).toNat

end Cardano.CrcSpec
