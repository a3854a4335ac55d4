import Verif.Spec.BlockRules
import Verif.Model.StakePool
import Verif.Model.Kes

/-! # A stake pool operator who uses the library

The vocabulary of C92. -/

namespace Cardano.Spec.Operator

open Cardano Cardano.Spec.BlockRules

/-- What happens at a pool: a new KES period begins, the operator rotates the KES key (from a fresh random seed),
the node forges a block. -/
inductive Action where
  | newPeriod
  | rotate (seed : Bytes)
  | forge (header : Bytes)

/-- Files and clock of the operator: current KES period, issue counter, current KES key and certificate. -/
structure Node where
  period : Nat
  counter : Nat
  current : Option (Kes.Key × Pool.OpCert)

/-- The cold key: a plain Ed25519 key (`ColdSigningKey`) or one derived from a seed phrase (`ExtendedColdSigningKey`). -/
inductive Cold where
  | plain (skey : Bytes)
  | extended (key : Bip32.Prv)

/-- `verificationKey()` of the cold key. -/
def Cold.vkey (E : Pool.Env) : Cold → Out Bytes
  | .plain skey => .ok (Pool.skeyVkey E skey)
  | .extended k => Pool.xskeyVkey E k

/-- `OperationalCertificateManager::generate` with the cold key. -/
def Cold.issue (E : Pool.Env) (hot : Bytes) (count period : Nat) : Cold → Out Pool.OpCert
  | .plain skey => .ok (Pool.generate E hot count period skey)
  | .extended k => Pool.generateX E hot count period k

/-- The secret with which Ed25519 makes the nonces of the key's signatures. -/
def Cold.noncePrefix (sha512 : Bytes → Bytes) : Cold → Bytes
  | .plain skey => (sha512 skey).drop 32
  | .extended k => k.key.drop 32

/-- A usable key: 32 bytes, or an extended key whose scalar is not zero modulo the group order (all keys derived from
a seed phrase: `C92_seed_phrase_key`). -/
def Cold.Usable : Cold → Prop
  | .plain skey => skey.length = 32
  | .extended k => ¬ Ed.ellL ∣ leNat (k.key.take 32)

/-- The operator's calls of the library.  In a new period the key is evolved; on rotation a key is generated, a
certificate issued with the counter, and the counter incremented. -/
def act (E : Pool.Env) (S : SigHash) (d : Nat) (cold : Cold) (n : Node) : Action → Out (Node × List Block)
  | .newPeriod => match n.current with
    | none => .ok ({ n with period := n.period + 1 }, [])
    | some (k, c) => match Kes.update S d k with
      | (k', .ok ()) => .ok ({ n with period := n.period + 1, current := some (k', c) }, [])
      | (_, .throw e) => .throw e
      | (_, .ub) => .ub
  | .rotate seed => do
    let (k, pk, _) ← Kes.keygen S d seed
    let c ← cold.issue E pk n.counter n.period
    .ok ({ n with counter := Pool.increment n.counter, current := some (k, c) }, [])
  | .forge header => match n.current with
    | none => .throw .runtimeError
    | some (k, c) => do
      let sig ← Kes.sign S d k header
      let vk ← cold.vkey E
      .ok (n, [⟨n.period, vk, c.hotVkey, c.seq, c.period, c.sigma, header, sig⟩])

/-- The blocks of a history. -/
def blocks (E : Pool.Env) (S : SigHash) (d : Nat) (cold : Cold) : Node → List Action → Out (List Block)
  | _, [] => .ok []
  | n, a :: as => do
    let (n', bs) ← act E S d cold n a
    let rest ← blocks E S d cold n' as
    .ok (bs ++ rest)

/-- The operator rotates in time: no key is used for `limit` periods or more, and nothing is forged without a key.
The first argument is the age of the current key. -/
def InTime (limit : Nat) : Option Nat → List Action → Prop
  | _, [] => True
  | _, .rotate _ :: as => 0 < limit ∧ InTime limit (some 0) as
  | none, .newPeriod :: as => InTime limit none as
  | some a, .newPeriod :: as => a + 1 < limit ∧ InTime limit (some (a + 1)) as
  | none, .forge _ :: _ => False
  | some a, .forge _ :: as => InTime limit (some a) as

/-- Every key that is rotated away has forged a block before.  The first argument: the current key (if any) has. -/
def KeysUsed : Bool → List Action → Prop
  | _, [] => True
  | used, .rotate _ :: as => used = true ∧ KeysUsed false as
  | used, .newPeriod :: as => KeysUsed used as
  | _, .forge _ :: as => KeysUsed true as

end Cardano.Spec.Operator
