import Verif.Spec.LedgerRules
import Verif.Spec.StakePool
import Verif.Spec.Kes

/-! # When the network accepts a block's operational certificate

The OCERT rule of the Shelley ledger specification (section 12.3) and its stricter form since Babbage (Praos): a
small transcription, independent of the library. -/

namespace Cardano.Spec.BlockRules

open Cardano Cardano.Spec.LedgerRules

/-- Verification of a sum-composition KES signature of depth `d` in period `t` (Malkin, Micciancio and Miner 2002):
the signature ends with the keys of the two subtrees, which hash to the verification key; the rest is a signature
of the subtree of the period. -/
def SumAccepts (N : Crypto) : (d t : Nat) → (vk msg sig : Bytes) → Prop
  | 0, _, vk, msg, sig => sig.length = 64 ∧ N.verify vk msg sig = true
  | d + 1, t, vk, msg, sig => ∃ sub l r, sig = sub ++ l ++ r ∧ l.length = 32 ∧ r.length = 32 ∧
      N.bodyHash (l ++ r) = vk ∧
      (t < 2 ^ d → SumAccepts N d t l msg sub) ∧ (2 ^ d ≤ t → SumAccepts N d (t - 2 ^ d) r msg sub)

/-- The part of a block the rule looks at: KES period of its slot, cold key, operational certificate
(hot key, counter, first period, signature), header bytes and their KES signature. -/
structure Block where
  period : Nat
  coldVkey : Bytes
  hotVkey : Bytes
  counter : Nat
  start : Nat
  sigma : Bytes
  header : Bytes
  sig : Bytes

/-- Rule OCERT for KES keys of depth `d`; `m` is the last counter seen for the pool.  `praos`: since Babbage the
counter may not skip a number. -/
structure CertAccepts (N : Crypto) (praos : Bool) (maxEvo d m : Nat) (b : Block) : Prop where
  started : b.start ≤ b.period
  notExpired : b.period < b.start + maxEvo
  counterOld : m ≤ b.counter
  counterNew : praos = true → b.counter ≤ m + 1
  cold : ∃ msg, Pool.SignableBytes b.hotVkey b.counter b.start msg ∧ N.verify b.coldVkey msg b.sigma = true
  kes : SumAccepts N d (b.period - b.start) b.hotVkey b.header b.sig

/-- A pool's blocks, one after the other. -/
def ChainAccepts (N : Crypto) (praos : Bool) (maxEvo d : Nat) : Nat → List Block → Prop
  | _, [] => True
  | m, b :: bs => CertAccepts N praos maxEvo d m b ∧ ChainAccepts N praos maxEvo d b.counter bs

end Cardano.Spec.BlockRules
