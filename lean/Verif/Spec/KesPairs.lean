import Verif.Spec.Kes

/-! # Which key pairs a KES signature claims

Along the path from leaf `t` to the root, the node at height `h + 1` has two children at height `h`.  A full signature carries the two children's
keys for every height; a compact one carries the leaf's key and, for every height, the key of the child off the path, from which the other keys are
recomputed.  No hash is injective, so "or two strings with the same hash exist" would say nothing: the statements about accepted signatures name
the two strings, one computed from the signature and one from the seed. -/

namespace Cardano.KesSpec

variable (C : SigHash)

/-- Two different strings with the same hash. -/
def Collide (H : Bytes → Bytes) (x y : Bytes) : Prop := x ≠ y ∧ H x = H y

/-- The keys of the two children, at height `h`, of the node of height `h + 1` on the path of leaf `t`, in the tree of depth `d` grown from
`seed`. -/
def childKeys (d : Nat) (seed : Bytes) (t h : Nat) : Bytes :=
  treeKey C h (seedAt C seed ((leafPath d t).take (d - (h + 1)) ++ [false])) ++
    treeKey C h (seedAt C seed ((leafPath d t).take (d - (h + 1)) ++ [true]))

/-- The 64 bytes a full signature gives for these two keys: after the leaf signature (64 bytes), 64 bytes for each height. -/
def claimedKeys (sig : Bytes) (h : Nat) : Bytes := (sig.drop (64 + 64 * h)).take 64

/-- The key of the child off the path, at height `h`, in a compact signature: after the leaf signature and the leaf key, 32 bytes for each
height. -/
def claimedSibling (sig : Bytes) (h : Nat) : Bytes := (sig.drop (96 + 32 * h)).take 32

/-- Put the key `k` of the child on the path and `s` of the other child in order. -/
def inOrder (t h : Nat) (k s : Bytes) : Bytes := if t.testBit h then s ++ k else k ++ s

/-- The key of the node of height `h` on the path of leaf `t`, as a compact signature implies it. -/
def impliedKey (t : Nat) (sig : Bytes) : Nat → Bytes
  | 0 => (sig.drop 64).take 32
  | h + 1 => C.hash (inOrder t h (impliedKey t sig h) (claimedSibling sig h))

/-- The two keys at height `h` that a compact signature implies. -/
def impliedKeys (t : Nat) (sig : Bytes) (h : Nat) : Bytes := inOrder t h (impliedKey C t sig h) (claimedSibling sig h)

end Cardano.KesSpec
