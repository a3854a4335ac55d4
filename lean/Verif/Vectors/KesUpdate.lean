import Verif.Vectors.KesKeygen

/-! # Test vectors: KES (continued)

See `Verif.Vectors.Kes`; in its own file to bound the memory of the check. -/

namespace Cardano.Vectors

open Cardano Cardano.Ed Cardano.Spec Cardano.Real

example : Kes.sign kesSig 6 ⟨key6 ++ [0, 0, 0, 0], 0⟩ (ascii "test message") = .ok key6Sig := by
  rw [← kesSigFast_eq]; decide +kernel
example : (Kes.updates kesSig 6 5 ⟨key6 ++ [0, 0, 0, 0], 0⟩ >>= fun k => .ok k.prv) = .ok (key6update5 ++ [0, 0, 0, 5]) := by
  rw [← kesSigFast_eq]; decide +kernel

end Cardano.Vectors
