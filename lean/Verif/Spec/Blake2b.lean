import Verif.Spec.Sha2

/-! # BLAKE2b (RFC 7693), without a key

The library asks Botan for `BLAKE2b(256)` and `BLAKE2b(224)` and libsodium for `crypto_generichash` of 32
bytes. -/

namespace Cardano.Spec

open Cardano

namespace Blake2b

/-- `ROTR64` (2.3). -/
def rotr (n x : Nat) : Nat := (x >>> n) ||| ((x <<< (64 - n)) % 2 ^ 64)

/-- The mixing function `G` (3.1), passing the four new words on. -/
def mixG {α : Type} (a b c d x y : Nat) (k : Nat → Nat → Nat → Nat → α) : α :=
  force ((a + b + x) % 2 ^ 64) fun a => force (rotr 32 (d ^^^ a)) fun d =>
    force ((c + d) % 2 ^ 64) fun c => force (rotr 24 (b ^^^ c)) fun b =>
      force ((a + b + y) % 2 ^ 64) fun a => force (rotr 16 (d ^^^ a)) fun d =>
        force ((c + d) % 2 ^ 64) fun c => force (rotr 63 (b ^^^ c)) fun b => k a b c d

/-- The message word schedule of the twelve rounds (2.7; rows 0 and 1 come again). -/
def sigma : List (List Nat) :=
  [[0, 1, 2, 3, 4, 5, 6, 7, 8, 9, 10, 11, 12, 13, 14, 15],
   [14, 10, 4, 8, 9, 15, 13, 6, 1, 12, 0, 2, 11, 7, 5, 3],
   [11, 8, 12, 0, 5, 2, 15, 13, 10, 14, 3, 6, 7, 1, 9, 4],
   [7, 9, 3, 1, 13, 12, 11, 14, 2, 6, 5, 10, 4, 0, 15, 8],
   [9, 0, 5, 7, 2, 4, 10, 15, 14, 1, 11, 12, 6, 8, 3, 13],
   [2, 12, 6, 10, 0, 11, 8, 3, 4, 13, 7, 5, 15, 14, 1, 9],
   [12, 5, 1, 15, 14, 13, 4, 10, 0, 7, 6, 3, 9, 2, 8, 11],
   [13, 11, 7, 14, 12, 1, 3, 9, 5, 0, 15, 4, 8, 6, 2, 10],
   [6, 15, 14, 9, 11, 3, 0, 8, 12, 2, 13, 7, 1, 4, 10, 5],
   [10, 2, 8, 4, 7, 6, 1, 5, 15, 11, 9, 14, 3, 12, 13, 0],
   [0, 1, 2, 3, 4, 5, 6, 7, 8, 9, 10, 11, 12, 13, 14, 15],
   [14, 10, 4, 8, 9, 15, 13, 6, 1, 12, 0, 2, 11, 7, 5, 3]]

/-- The initialization vector (2.6), the one of SHA-512. -/
def iv : List Nat := [0x6a09e667f3bcc908, 0xbb67ae8584caa73b, 0x3c6ef372fe94f82b, 0xa54ff53a5f1d36f1,
   0x510e527fade682d1, 0x9b05688c2b3e6c1f, 0x1f83d9abfb41bd6b, 0x5be0cd19137e2179]

/-- The rounds of the compression function (3.2): column step, diagonal step. -/
def rounds (m : List Nat) : List (List Nat) → (v0 v1 v2 v3 v4 v5 v6 v7 v8 v9 v10 v11 v12 v13 v14 v15 : Nat) → List Nat
  | [], v0, v1, v2, v3, v4, v5, v6, v7, v8, v9, v10, v11, v12, v13, v14, v15 => [v0 ^^^ v8, v1 ^^^ v9, v2 ^^^ v10, v3 ^^^ v11, v4 ^^^ v12, v5 ^^^ v13, v6 ^^^ v14, v7 ^^^ v15]
  | s :: l, v0, v1, v2, v3, v4, v5, v6, v7, v8, v9, v10, v11, v12, v13, v14, v15 =>
    mixG v0 v4 v8 v12 (m.getD (s.getD 0 0) 0) (m.getD (s.getD 1 0) 0) fun v0 v4 v8 v12 =>
    mixG v1 v5 v9 v13 (m.getD (s.getD 2 0) 0) (m.getD (s.getD 3 0) 0) fun v1 v5 v9 v13 =>
    mixG v2 v6 v10 v14 (m.getD (s.getD 4 0) 0) (m.getD (s.getD 5 0) 0) fun v2 v6 v10 v14 =>
    mixG v3 v7 v11 v15 (m.getD (s.getD 6 0) 0) (m.getD (s.getD 7 0) 0) fun v3 v7 v11 v15 =>
    mixG v0 v5 v10 v15 (m.getD (s.getD 8 0) 0) (m.getD (s.getD 9 0) 0) fun v0 v5 v10 v15 =>
    mixG v1 v6 v11 v12 (m.getD (s.getD 10 0) 0) (m.getD (s.getD 11 0) 0) fun v1 v6 v11 v12 =>
    mixG v2 v7 v8 v13 (m.getD (s.getD 12 0) 0) (m.getD (s.getD 13 0) 0) fun v2 v7 v8 v13 =>
    mixG v3 v4 v9 v14 (m.getD (s.getD 14 0) 0) (m.getD (s.getD 15 0) 0) fun v3 v4 v9 v14 =>
    rounds m l v0 v1 v2 v3 v4 v5 v6 v7 v8 v9 v10 v11 v12 v13 v14 v15

/-- The state `h` of eight words. -/
structure State where
  h0 : Nat
  h1 : Nat
  h2 : Nat
  h3 : Nat
  h4 : Nat
  h5 : Nat
  h6 : Nat
  h7 : Nat

/-- The compression function `F` (3.2): `t` bytes so far, `last` tells the final block. -/
def compress (h : State) (block : Bytes) (t : Nat) (last : Bool) : State :=
  let m := (pieces 8 16 block).map fun w => beWord w.reverse
  let i := fun n => iv.getD n 0
  let r := rounds m sigma h.h0 h.h1 h.h2 h.h3 h.h4 h.h5 h.h6 h.h7 (i 0) (i 1) (i 2) (i 3) (i 4 ^^^ (t % 2 ^ 64))
    (i 5 ^^^ (t / 2 ^ 64)) (if last then 2 ^ 64 - 1 - i 6 else i 6) (i 7)
  force (h.h0 ^^^ r.getD 0 0) fun h0 => force (h.h1 ^^^ r.getD 1 0) fun h1 => force (h.h2 ^^^ r.getD 2 0) fun h2 => force (h.h3 ^^^ r.getD 3 0) fun h3 => force (h.h4 ^^^ r.getD 4 0) fun h4 => force (h.h5 ^^^ r.getD 5 0) fun h5 => force (h.h6 ^^^ r.getD 6 0) fun h6 => force (h.h7 ^^^ r.getD 7 0) fun h7 =>
    ⟨h0, h1, h2, h3, h4, h5, h6, h7⟩

/-- The blocks of a message (3.3): `n` full blocks before the last one, which is padded with zeros. -/
def blocks (total : Nat) : (n : Nat) → (t : Nat) → Bytes → State → State
  | 0, _, m, h => compress h (m ++ List.replicate (128 - m.length) 0) total true
  | n + 1, t, m, h => blocks total n (t + 128) (m.drop 128) (compress h (m.take 128) (t + 128) false)

/-- BLAKE2b with a digest of `nn` bytes and no key (3.3). -/
def hash (nn : Nat) (m : Bytes) : Bytes :=
  let i := fun n => iv.getD n 0
  let h := blocks m.length ((m.length - 1) / 128) 0 m ⟨i 0 ^^^ 0x01010000 ^^^ nn, i 1, i 2, i 3, i 4, i 5, i 6, i 7⟩
  ([h.h0, h.h1, h.h2, h.h3, h.h4, h.h5, h.h6, h.h7].flatMap (leBytes 8)).take nn

theorem hash_length (nn : Nat) (h : nn ≤ 64) (m : Bytes) : (hash nn m).length = nn := by
  simp only [hash, List.length_take, List.flatMap_cons, List.flatMap_nil, List.length_append, leBytes_length, List.length_nil]
  omega

end Blake2b

/-- BLAKE2b-256. -/
def blake2b256 (m : Bytes) : Bytes := Blake2b.hash 32 m

/-- BLAKE2b-224. -/
def blake2b224 (m : Bytes) : Bytes := Blake2b.hash 28 m

theorem blake2b256_length (m : Bytes) : (blake2b256 m).length = 32 := Blake2b.hash_length 32 (by decide) m

theorem blake2b224_length (m : Bytes) : (blake2b224 m).length = 28 := Blake2b.hash_length 28 (by decide) m

end Cardano.Spec
