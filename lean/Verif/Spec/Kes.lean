import Verif.Spec.Crypto

/-! # Specification vocabulary for the KES tree

The sum construction (Malkin, Micciancio, Miner) at depth `d`: a binary tree with `2^d`
leaves.  A node is named by the path from the root (`false` = left, `true` = right).
The seed of the left (right) child is the hash of byte 1 (2) and the parent's seed; the
public key of a leaf is the Ed25519 key of its seed, that of an inner node the hash of
the public keys of its children.  Leaf number `t` (counting from the left) signs in
period `t`. -/

namespace Cardano.KesSpec

variable (C : SigHash)

/-- Seed of the node at `path` in the tree with root seed `root`. -/
def seedAt (root : Bytes) : List Bool → Bytes
  | [] => root
  | false :: p => seedAt (C.hash (1 :: root)) p
  | true :: p => seedAt (C.hash (2 :: root)) p

/-- Public key of a tree of depth `d` with root seed `seed`. -/
def treeKey : (d : Nat) → (seed : Bytes) → Bytes
  | 0, seed => C.pub seed
  | d + 1, seed => C.hash (treeKey d (C.hash (1 :: seed)) ++ treeKey d (C.hash (2 :: seed)))

/-- Path of the leaf of period `t` in a tree of depth `d`: the `d` binary digits of `t`. -/
def leafPath : (d t : Nat) → List Bool
  | 0, _ => []
  | d + 1, t => t.testBit d :: leafPath d t

/-- What a 32-byte field of a key buffer may contain. -/
inductive Cell where
  /-- the secret seed of a node -/
  | seed (path : List Bool)
  /-- the public key of a node -/
  | key (path : List Bool)
  /-- zero bytes -/
  | zero

/-- The bytes of a cell in the tree of depth `d` grown from `root`. -/
def Cell.bytes (d : Nat) (root : Bytes) : Cell → Bytes
  | .seed p => seedAt C root p
  | .key p => treeKey C (d - p.length) (seedAt C root p)
  | .zero => List.replicate 32 0

end Cardano.KesSpec
