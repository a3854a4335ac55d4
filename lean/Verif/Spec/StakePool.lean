import Verif.Model.StakePool
import Verif.Spec.Util
import Verif.Spec.Ledger
import Mathlib.Algebra.Order.Field.Rat

/-! # Formats of stake pool objects, stated without the model's encoders -/

namespace Cardano.Pool

open Cardano

/-- The bytes of an unsigned number in CBOR (RFC 8949, 3.1 with the shortest form). -/
def CborUint (n : Nat) (b : Bytes) : Prop :=
  (n < 24 ∧ ∃ x : UInt8, x.toNat = n ∧ b = [x]) ∨
  (24 ≤ n ∧ n < 2 ^ 8 ∧ ∃ t : Bytes, t.length = 1 ∧ beNat t = n ∧ b = 0x18 :: t) ∨
  (2 ^ 8 ≤ n ∧ n < 2 ^ 16 ∧ ∃ t : Bytes, t.length = 2 ∧ beNat t = n ∧ b = 0x19 :: t) ∨
  (2 ^ 16 ≤ n ∧ n < 2 ^ 32 ∧ ∃ t : Bytes, t.length = 4 ∧ beNat t = n ∧ b = 0x1A :: t) ∨
  (2 ^ 32 ≤ n ∧ n < 2 ^ 64 ∧ ∃ t : Bytes, t.length = 8 ∧ beNat t = n ∧ b = 0x1B :: t)

/-- The message signed in an operational certificate (`OCertSignable` of the ledger):
verification key of the hot key, counter and KES period as 64-bit big-endian numbers. -/
def SignableBytes (hot : Bytes) (counter period : Nat) (msg : Bytes) : Prop :=
  ∃ c p : Bytes, c.length = 8 ∧ beNat c = counter ∧ p.length = 8 ∧ beNat p = period ∧ msg = hot ++ c ++ p

/-- `operational_cert = [hot_vkey, sequence_number, kes_period, sigma]` (ledger CDDL). -/
def OpCertBytes (hot : Bytes) (counter period : Nat) (sigma b : Bytes) : Prop :=
  ∃ c p : Bytes, CborUint counter c ∧ CborUint period p ∧
    b = [0x84, 0x58, 0x20] ++ hot ++ c ++ p ++ [0x58, 0x40] ++ sigma

/-! ## Registration certificates -/

/-- What the argument types of the setters guarantee (sizes of arrays and integers), and: the
metadata hash has at least 32 bytes; a margin that is a number in [0,1] has a value `m/2^e`
with `e ≤ 62` (other accepted margins: see `C58_tiny_margin`, `C58_nan_margin`). -/
def CallOk : Call → Prop
  | .setOperatorKey v => v.length = 32
  | .setOperator i => i.length = 28
  | .setVrfKey v => v.length = 32
  | .setPledge n => n < 2 ^ 64
  | .setCost n => n < 2 ^ 64
  | .setMargin f => MarginOk f
  | .setRewardAccount a => a.key.length = 28
  | .addOwner a => a.key.length = 28
  | .addRelayMulti d => Spec.Ledger.Fits d
  | .addRelayName d port => Spec.Ledger.Fits d ∧ port < 2 ^ 16
  | .addRelayV4 ip port => ip.length = 4 ∧ port < 2 ^ 16
  | .addRelayV6 ip port => ip.length = 16 ∧ port < 2 ^ 16
  | .setMetadata u h => Spec.Ledger.Fits u ∧ 32 ≤ h.length
where
  /-- The margin is an infinity, or a finite double with at most 62 binary places. -/
  MarginOk : Util.Dbl → Prop
    | .nan => False
    | .inf _ => True
    | .fin _ m e => (m % 2 = 1 ∨ e = 0) ∧ m < 2 ^ 63 ∧ e ≤ 62

/-- `r` is a fraction in lowest terms between 0 and 1 with a denominator of at most 4096. -/
def UnitFraction (r : Ledger.Rational) : Prop :=
  1 ≤ r.den ∧ r.den ≤ 4096 ∧ r.num ≤ r.den ∧ Nat.gcd r.num r.den = 1

/-- `r` is the margin `f`, a number in [0,1], to within 1/4096. -/
def Approximates (r : Ledger.Rational) : Util.Dbl → Prop
  | .fin neg m e => (neg = false ∨ m = 0) ∧ m ≤ 2 ^ e ∧ |(m : ℚ) / 2 ^ e - (r.num : ℚ) / r.den| ≤ 1 / 4096
  | _ => False

/-- The parameters are well formed. -/
def Valid (p : Ledger.PoolParams) : Prop :=
  p.operator.length = 28 ∧ p.vrfKeyHash.length = 32 ∧ p.pledge < 2 ^ 64 ∧ p.cost < 2 ^ 64 ∧ UnitFraction p.margin ∧
  p.rewardAccount.length = 29 ∧ (Spec.Ledger.StrictSorted Ledger.bytesLt p.owners ∧ ∀ o ∈ p.owners, o.length = 28) ∧
  (∀ r ∈ p.relays, r ≠ .empty ∧ Spec.Ledger.RelayRep r) ∧ ∀ m ∈ p.metadata, Spec.Ledger.MetaRep m

/-! What each call asks for. -/

def Call.pledge : Call → Option Nat
  | .setPledge n => some n
  | _ => none
def Call.cost : Call → Option Nat
  | .setCost n => some n
  | _ => none
def Call.operator (E : Env) : Call → Option Bytes
  | .setOperatorKey v => some (E.blake224 v)
  | .setOperator i => some i
  | _ => none
def Call.vrf (E : Env) : Call → Option Bytes
  | .setVrfKey v => some (E.P.blake256 v)
  | _ => none
def Call.account : Call → Option Bytes
  | .setRewardAccount a => some (a.header :: a.key)
  | _ => none
def Call.relay : Call → Option Ledger.Relay
  | .addRelayMulti d => some (.multi d)
  | .addRelayName d port => some (.name d (some port))
  | .addRelayV4 ip port => some (.addr (some ip) none (some port))
  | .addRelayV6 ip port => some (.addr none (some ip) (some port))
  | _ => none
def Call.metadata : Call → Option Ledger.PoolMetadata
  | .setMetadata u h => some ⟨u, h.take 32⟩
  | _ => none
/-- The margin is a number between 0 and 1. -/
def InUnit : Util.Dbl → Bool
  | .fin neg m e => (!neg || m == 0) && decide (m ≤ 2 ^ e)
  | _ => false
def Call.margin : Call → Option Util.Dbl
  | .setMargin f => if InUnit f then some f else none
  | _ => none

/-- The last value asked for, or the one there was. -/
def lastOr {α} (f : Call → Option α) (old : α) (calls : List Call) : α := ((calls.filterMap f).getLast?).getD old

end Cardano.Pool
