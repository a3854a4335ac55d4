import Verif.Model.Kes
import Verif.Spec.Kes

/-! # The life of a KES signing key object

Calls a program makes on one object of `SumKesPrivateKey<Depth>` (depth ≥ 1) and what it gets
back.  An exception is caught by the caller, who goes on using the object. -/

namespace Cardano.KesSpec

open Cardano.Kes

/-- The public calls on a key object. -/
inductive Call where
  | update
  | sign (msg : Bytes)
  | signCompact (msg : Bytes)
  | period
  | publicKey
  | bytes
  | drop

/-- What a call gives back. -/
inductive Reply where
  | done
  | signature (s : Bytes)
  | number (n : Nat)
  | key (pk : Bytes)
  | bytes (b : Bytes)
  deriving DecidableEq

/-- Wrap a result. -/
def asReply {α} (f : α → Reply) : Out α → Out Reply
  | .ok a => .ok (f a)
  | .throw e => .throw e
  | .ub => .ub

/-- One call on a key of depth `d + 1`: the object afterwards and the reply. -/
def answer (C : SigHash) (d : Nat) (k : Key) : Call → Key × Out Reply
  | .update => ((update C (d + 1) k).1, asReply (fun _ => .done) (update C (d + 1) k).2)
  | .sign m => (k, asReply .signature (sign C (d + 1) k m))
  | .signCompact m => (k, asReply .signature (signCompact C (d + 1) k m))
  | .period => (k, .ok (.number (period (d + 1) k)))
  | .publicKey => (k, asReply .key (publicKey C d k))
  | .bytes => (k, .ok (.bytes k.prv))
  | .drop => (Kes.drop k, .ok .done)

/-- The object after a sequence of calls. -/
def after (C : SigHash) (d : Nat) : Key → List Call → Key
  | k, [] => k
  | k, c :: cs => after C d (answer C d k c).1 cs

/-- The replies to a sequence of calls. -/
def replies (C : SigHash) (d : Nat) : Key → List Call → List (Out Reply)
  | _, [] => []
  | k, c :: cs => (answer C d k c).2 :: replies C d (answer C d k c).1 cs

/-- How many of the calls are `update()`. -/
def updateCalls : List Call → Nat
  | [] => 0
  | .update :: cs => updateCalls cs + 1
  | _ :: cs => updateCalls cs

/-- No call is `drop()`. -/
def NoDrop (cs : List Call) : Prop := Call.drop ∉ cs

/-- What the reply to a call has to be in period `t` of a key of depth `d + 1` with public key
`pk`: an update succeeds unless the last period is reached, signatures verify for period `t`
(except for the messages whose Ed25519 nonce is zero), and the period and public key are the
right ones. -/
def GoodReply (C : SigHash) (d t : Nat) (pk : Bytes) (leaf : Bytes) : Call → Out Reply → Prop
  | .update, r => r = if t + 1 < 2 ^ (d + 1) then .ok .done else .throw .runtimeError
  | .sign m, r => ∃ s, r = .ok (.signature s) ∧ s.length = 64 + 64 * (d + 1) ∧
      (¬ C.zeroNonce leaf m → verify C (d + 1) t pk m s = .ok true)
  | .signCompact m, r => ∃ s, r = .ok (.signature s) ∧ s.length = 64 + 32 * (d + 2) ∧
      (¬ C.zeroNonce leaf m → verifyCompact C (d + 1) t pk m s = .ok true)
  | .period, r => r = .ok (.number t)
  | .publicKey, r => r = .ok (.key pk)
  | .bytes, r => ∃ b, r = .ok (.bytes b) ∧ b.length = 32 + 96 * (d + 1) + 4
  | .drop, r => r = .ok .done

/-- One of the two subtrees of the key grown from `seed` has a public key of 32 zero bytes. -/
def ZeroSubtree (C : SigHash) (d : Nat) (seed : Bytes) : Prop :=
  treeKey C d (C.hash (1 :: seed)) = List.replicate 32 0 ∨ treeKey C d (C.hash (2 :: seed)) = List.replicate 32 0

end Cardano.KesSpec
