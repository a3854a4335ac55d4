import Verif.Spec.Rfc8949
import Verif.Spec.SetOrder

/-! # Deterministically encoded CBOR (RFC 8949, section 4.2.1)

Hardware wallets and other signers rebuild the bytes of a transaction from its contents and refuse it if they are not these. -/

namespace Cardano.Spec.Rfc8949

open Cardano Cardano.Cbor Cardano.Spec.SetOrder

/-- The head of an item with "the shortest form" of the argument: 24 and more only if it does not fit into the first byte,
and `2^k` bytes only if it does not fit into fewer. -/
inductive ShortHead (major n : Nat) : Bytes → Prop
  | short {c : UInt8} : n < 24 → c.toNat = 32 * major + n → ShortHead major n [c]
  | long {c : UInt8} {arg : Bytes} {k : Nat} : k ≤ 3 → c.toNat = 32 * major + 24 + k → arg.length = 2 ^ k → beNat arg = n →
      24 ≤ n → (∀ j, j < k → 256 ^ 2 ^ j ≤ n) → ShortHead major n (c :: arg)

/-- Core deterministic encoding: every head is shortest, lengths are definite, and "the keys in every map are sorted in the
bytewise lexicographic order of their deterministic encodings", without duplicates. -/
inductive Deterministic : Item → Bytes → Prop
  | uint {n h} : ShortHead 0 n h → Deterministic (.uint n) h
  | nint {n h} : n < 2 ^ 63 → ShortHead 1 n h → Deterministic (.nint n) h
  | bstr {b h : Bytes} : ShortHead 2 b.length h → Deterministic (.bstr b) (h ++ b)
  | tstr {b h : Bytes} : ShortHead 3 b.length h → Deterministic (.tstr b) (h ++ b)
  | array {ps : List (Item × Bytes)} {h : Bytes} : ShortHead 4 ps.length h → (∀ p ∈ ps, Deterministic p.1 p.2) →
      Deterministic (.array (ps.map (·.1))) (h ++ (ps.map (·.2)).flatten)
  | map {ps : List ((Item × Bytes) × (Item × Bytes))} {h : Bytes} : ShortHead 5 ps.length h →
      (∀ p ∈ ps, Deterministic p.1.1 p.1.2) → (∀ p ∈ ps, Deterministic p.2.1 p.2.2) → (ps.map (·.1.2)).Pairwise Before →
      Deterministic (.map (ps.flatMap fun p => [p.1.1, p.2.1])) (h ++ ps.flatMap fun p => p.1.2 ++ p.2.2)
  | tag {n : Nat} {i : Item} {h b : Bytes} : ShortHead 6 n h → Deterministic i b → Deterministic (.tag n i) (h ++ b)
  | false : Deterministic (.bool false) [0xF4]
  | true : Deterministic (.bool true) [0xF5]
  | null : Deterministic .null [0xF6]

end Cardano.Spec.Rfc8949
