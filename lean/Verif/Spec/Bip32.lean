import Verif.Spec.Util
import Verif.Lemmas.Util

/-! # Child key derivation of the BIP32-Ed25519 paper (the "V2" mode)

Khovratovich & Law, "BIP32-Ed25519: Hierarchical Deterministic Keys over a Non-linear
Keyspace".  `hmac` is HMAC-SHA-512, indices are written in 4 little-endian bytes. -/

namespace Cardano.Spec.Bip32

open Cardano

/-- Indices from 2^31 are hardened. -/
def Hardened (i : Nat) : Prop := 2 ^ 31 ≤ i

/-- The left 32 bytes of an extended secret key, as a number. -/
def kL (key : Bytes) : Nat := leNat (key.take 32)
/-- The right 32 bytes of an extended secret key, as a number. -/
def kR (key : Bytes) : Nat := leNat (key.drop 32)

/-- `c` is the child with index `i` of the extended secret key `k` whose public key is `A`
and chain code `cc`:  Z = HMAC(cc, 0x00‖k‖i) for hardened and HMAC(cc, 0x02‖A‖i) for other
indices; kL' = 8·Z[0..28) + kL, kR' = (Z[32..64) + kR) mod 2^256, and the chain code is
the right half of HMAC(cc, 0x01‖k‖i), respectively HMAC(cc, 0x03‖A‖i). -/
def IsChild (hmac : Bytes → Bytes → Bytes) (k A cc : Bytes) (i : Nat) (k' cc' : Bytes) : Prop :=
  ∀ ib : Bytes, ib.length = 4 → leNat ib = i →
    ∀ z h : Bytes,
      (Hardened i → z = hmac cc ([0x00] ++ k ++ ib) ∧ h = hmac cc ([0x01] ++ k ++ ib)) →
      (¬ Hardened i → z = hmac cc ([0x02] ++ A ++ ib) ∧ h = hmac cc ([0x03] ++ A ++ ib)) →
      k'.length = 64 ∧ kL k' = 8 * leNat (z.take 28) + kL k ∧
        kR k' = (leNat (z.drop 32) + kR k) % 2 ^ 256 ∧ cc' = h.drop 32

/-- `k'`, `cc'` is the descendant of `k`, `cc` along a path of indices; `pk` gives the public
key of an extended secret key. -/
def Descendant (hmac : Bytes → Bytes → Bytes) (pk : Bytes → Bytes) (k cc : Bytes) : List Nat → Bytes → Bytes → Prop
  | [], k', cc' => k' = k ∧ cc' = cc
  | i :: path, k', cc' => ∃ k1 cc1, IsChild hmac k (pk k) cc i k1 cc1 ∧ Descendant hmac pk k1 cc1 path k' cc'

/-- The historical variant ("V1", Daedalus): index in 4 big-endian bytes, every byte of
Z[0..32) multiplied by 8 modulo 256 on its own, kL' reduced modulo the group order `ℓ`, and
the bytes of Z[32..64) and kR added modulo 256 one by one. -/
def IsChildV1 (ℓ : Nat) (hmac : Bytes → Bytes → Bytes) (k A cc : Bytes) (i : Nat) (k' cc' : Bytes) : Prop :=
  ∀ ib : Bytes, ib.length = 4 → beNat ib = i →
    ∀ z h : Bytes,
      (Hardened i → z = hmac cc ([0x00] ++ k ++ ib) ∧ h = hmac cc ([0x01] ++ k ++ ib)) →
      (¬ Hardened i → z = hmac cc ([0x02] ++ A ++ ib) ∧ h = hmac cc ([0x03] ++ A ++ ib)) →
      k'.length = 64 ∧ kL k' = (leNat ((z.take 32).map (fun b => 8 * b)) + kL k) % ℓ ∧
        k'.drop 32 = List.zipWith (· + ·) (z.drop 32) (k.drop 32) ∧ cc' = h.drop 32

/-- Icarus master key (CIP-3): 96 bytes of PBKDF2, the lowest three bits of the first byte
and the highest three of the 32nd cleared, the second highest bit set; `x` are the PBKDF2
bytes, `k`/`cc` key and chain code. -/
def IsIcarusMaster (x k cc : Bytes) : Prop :=
  ∀ (b0 b31 : UInt8) (mid rest : Bytes), x = b0 :: (mid ++ b31 :: rest) → mid.length = 30 →
    k ++ cc = (b0 / 8 * 8) :: (mid ++ (b31 % 32 + 64) :: rest) ∧ k.length = 64 ∧ cc.length = 32

/-- Byron master key (CIP-3): the first attempt `i = 1, 2, …` such that bit 5 of byte 31 of
SHA-512(left half of HMAC(s, "Root Seed Chain i")) is clear; that hash with the usual three
low bits cleared and top bits `01`, and the right half of the HMAC as chain code. -/
def IsByronMaster (hmac : Bytes → Bytes → Bytes) (sha512 : Bytes → Bytes) (s k cc : Bytes) : Prop :=
  ∃ i : Nat, 1 ≤ i ∧ i ≤ 1000 ∧
    (∀ j b, 1 ≤ j → j < i → (sha512 ((hmac s (ascii s!"Root Seed Chain {j}")).take 32))[31]? = some b → b / 32 % 2 = 1) ∧
    ∃ (b0 b31 : UInt8) (mid rest : Bytes),
      sha512 ((hmac s (ascii s!"Root Seed Chain {i}")).take 32) = b0 :: (mid ++ b31 :: rest) ∧ mid.length = 30 ∧
      b31 / 32 % 2 = 0 ∧ k = (b0 / 8 * 8) :: (mid ++ (b31 % 64 + 64) :: rest) ∧
      cc = (hmac s (ascii s!"Root Seed Chain {i}")).drop 32

end Cardano.Spec.Bip32
