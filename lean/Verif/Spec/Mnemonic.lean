import Verif.Model.Basic

/-! # BIP-39, stated independently of the code

A phrase of `3·k` words carries `32·k` bits of entropy followed by `k` checksum bits:
the words, written as 11-bit numbers most significant bit first, spell exactly
entropy ‖ first `k` bits of SHA-256(entropy). -/

namespace Cardano.Spec.Bip39

/-- The `w` low bits of `n`, most significant first. -/
def bitsBE : (w n : Nat) → List Bool
  | 0, _ => []
  | w + 1, n => decide (n / 2 ^ w % 2 = 1) :: bitsBE w n

/-- The bits of a byte string. -/
def byteBits (bs : Bytes) : List Bool := bs.flatMap fun b => bitsBE 8 b.toNat

/-- The bits of a list of word numbers. -/
def wordBits (ws : List Nat) : List Bool := ws.flatMap (bitsBE 11)

/-- Numbers of words BIP-39 phrases may have here. -/
def ValidSize (n : Nat) : Prop := n ∈ [9, 12, 15, 18, 21, 24]

/-- The word numbers `ws` are the BIP-39 encoding of `entropy`. -/
def IsPhrase (sha : Bytes → Bytes) (entropy : Bytes) (ws : List Nat) : Prop :=
  ∃ k ∈ [3, 4, 5, 6, 7, 8], entropy.length = 4 * k ∧ ws.length = 3 * k ∧ (∀ w ∈ ws, w < 2048) ∧
    wordBits ws = byteBits entropy ++ (byteBits (sha entropy)).take k

end Cardano.Spec.Bip39
