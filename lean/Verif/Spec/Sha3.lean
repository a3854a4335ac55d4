import Verif.Spec.Sha2

/-! # SHA3-256 (FIPS 202)

Lane `(x, y)` of the state is element `x + 5 y` of a list of 25 words of 64 bits. -/

namespace Cardano.Spec

open Cardano

namespace Keccak

/-- Rotation to the left of a 64-bit word. -/
def rotl (n x : Nat) : Nat := ((x <<< n) % 2 ^ 64) ||| (x >>> (64 - n))

/-- `[f 0, …, f (n - 1)]` with the elements evaluated. -/
def build {α : Type} (f : Nat → Nat) : (n : Nat) → (acc : List Nat) → (k : List Nat → α) → α
  | 0, acc, k => k acc
  | n + 1, acc, k => force (f n) fun x => build f n (x :: acc) k

/-- Rotation offsets of `ρ` (3.2.2). -/
def offsets : List Nat := [0, 1, 62, 28, 27, 36, 44, 6, 55, 20, 3, 10, 43, 25, 39, 41, 45, 15, 21, 8, 18, 2, 61, 56, 14]

/-- `π` (3.2.3): the lane that moves to a place, `A'[x, y] = A[(x + 3y) mod 5, x]`. -/
def source (j : Nat) : Nat := (j % 5 + 3 * (j / 5)) % 5 + 5 * (j % 5)

/-- Round constants of `ι` (3.2.5). -/
def constants : List Nat :=
  [0x0000000000000001, 0x0000000000008082, 0x800000000000808a, 0x8000000080008000,
   0x000000000000808b, 0x0000000080000001, 0x8000000080008081, 0x8000000000008009,
   0x000000000000008a, 0x0000000000000088, 0x0000000080008009, 0x000000008000000a,
   0x000000008000808b, 0x800000000000008b, 0x8000000000008089, 0x8000000000008003,
   0x8000000000008002, 0x8000000000000080, 0x000000000000800a, 0x800000008000000a,
   0x8000000080008081, 0x8000000000008080, 0x0000000080000001, 0x8000000080008008]

/-- One round (3.3): `θ`, `ρ`, `π`, `χ`, `ι`. -/
def round (a : List Nat) (rc : Nat) : List Nat :=
  build (fun x => a.getD x 0 ^^^ a.getD (x + 5) 0 ^^^ a.getD (x + 10) 0 ^^^ a.getD (x + 15) 0 ^^^ a.getD (x + 20) 0) 5 [] fun c =>
    build (fun x => c.getD ((x + 4) % 5) 0 ^^^ rotl 1 (c.getD ((x + 1) % 5) 0)) 5 [] fun d =>
      build (fun j => rotl (offsets.getD (source j) 0) (a.getD (source j) 0 ^^^ d.getD (source j % 5) 0)) 25 [] fun b =>
        build (fun j => b.getD j 0 ^^^ ((2 ^ 64 - 1 - b.getD (j / 5 * 5 + (j % 5 + 1) % 5) 0) &&& b.getD (j / 5 * 5 + (j % 5 + 2) % 5) 0) ^^^
          (if j = 0 then rc else 0)) 25 [] id

/-- `Keccak-f[1600]` (3.4). -/
def permute (a : List Nat) : List Nat := constants.foldl round a

/-- Absorb the blocks of 136 bytes (4). -/
def absorb (a : List Nat) (m : Bytes) : List Nat :=
  let w := (pieces 8 17 m).map fun b => beWord b.reverse
  build (fun i => a.getD i 0 ^^^ w.getD i 0) 25 [] permute

end Keccak

/-- SHA3-256: suffix `01`, padding `10*1`, rate 1088 bits. -/
def sha3_256 (m : Bytes) : Bytes :=
  let q := 136 - m.length % 136
  let p := if q = 1 then m ++ [0x86] else m ++ 0x06 :: (List.replicate (q - 2) 0 ++ [0x80])
  let a := (pieces 136 (p.length / 136) p).foldl Keccak.absorb (List.replicate 25 0)
  [a.getD 0 0, a.getD 1 0, a.getD 2 0, a.getD 3 0].flatMap (leBytes 8)

theorem sha3_256_length (m : Bytes) : (sha3_256 m).length = 32 := by
  simp [sha3_256, leBytes_length]

end Cardano.Spec
