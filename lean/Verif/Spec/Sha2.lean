import Verif.Model.Basic

/-! # SHA-256 and SHA-512 (FIPS 180-4), HMAC (RFC 2104) and PBKDF2 (RFC 8018)

The library takes these from Botan and libsodium.  Every theorem about the library is
stated for arbitrary functions with the right output sizes; this file writes the actual algorithms down
from the standards, so that the theorems can be instantiated at them (`Verif.Props.Real`) and the model can be
run on the published test vectors of the library (`Verif.Vectors.*`).

Words are natural numbers below `2 ^ w`.  `force` is the identity; it only makes Lean's kernel
evaluate an intermediate number before it is used several times. -/

namespace Cardano.Spec

open Cardano

/-- `force n k = k n` (theorem `force_eq`). -/
def force {α : Type} (n : Nat) (k : Nat → α) : α := Nat.rec (k 0) (fun m _ => k (m + 1)) n

theorem force_eq {α : Type} (n : Nat) (k : Nat → α) : force n k = k n := by
  cases n <;> rfl

/-- `n` bytes, most significant first. -/
def beBytes : Nat → Nat → Bytes
  | 0, _ => []
  | n + 1, x => (x / 256 ^ n % 256).toUInt8 :: beBytes n x

theorem beBytes_length (n x : Nat) : (beBytes n x).length = n := by
  induction n with
  | zero => rfl
  | succ n ih => simp [beBytes, ih]

/-- `n` bytes, least significant first. -/
def leBytes : Nat → Nat → Bytes
  | 0, _ => []
  | n + 1, x => (x % 256).toUInt8 :: leBytes n (x / 256)

theorem leBytes_length (n x : Nat) : (leBytes n x).length = n := by
  induction n generalizing x with
  | zero => rfl
  | succ n ih => simp [leBytes, ih]

/-- The number a byte string stands for, most significant byte first. -/
def beWord (l : Bytes) : Nat := l.foldl (fun n b => force (n * 256 + b.toNat) id) 0

/-- The first `k` pieces of `n` bytes. -/
def pieces (n : Nat) : (k : Nat) → Bytes → List Bytes
  | 0, _ => []
  | k + 1, l => l.take n :: pieces n k (l.drop n)

namespace Sha2

/-- The parameters that distinguish SHA-256 from SHA-512 (FIPS 180-4, 4.1.2, 4.1.3). -/
structure Variant where
  /-- word size in bytes -/
  bytes : Nat
  /-- round constants -/
  k : List Nat
  /-- initial hash value -/
  iv : Nat × Nat × Nat × Nat × Nat × Nat × Nat × Nat
  /-- rotations of `Σ0`, `Σ1` -/
  S0 : Nat × Nat × Nat
  S1 : Nat × Nat × Nat
  /-- two rotations and a shift of `σ0`, `σ1` -/
  s0 : Nat × Nat × Nat
  s1 : Nat × Nat × Nat

/-- `ROTR^n(x)` on words of `w` bits (3.2). -/
def rotr (w n x : Nat) : Nat := (x >>> n) ||| ((x <<< (w - n)) % 2 ^ w)

/-- `Ch(x, y, z) = (x ∧ y) ⊕ (¬x ∧ z)` (4.2, 4.8). -/
def ch (w x y z : Nat) : Nat := (x &&& y) ^^^ ((2 ^ w - 1 - x) &&& z)

/-- `Maj(x, y, z)` (4.3, 4.9). -/
def maj (x y z : Nat) : Nat := (x &&& y) ^^^ (x &&& z) ^^^ (y &&& z)

/-- `Σ` (4.4, 4.5, 4.10, 4.11). -/
def bigSigma (w : Nat) (r : Nat × Nat × Nat) (x : Nat) : Nat :=
  rotr w r.1 x ^^^ rotr w r.2.1 x ^^^ rotr w r.2.2 x

/-- `σ` (4.6, 4.7, 4.12, 4.13). -/
def smallSigma (w : Nat) (r : Nat × Nat × Nat) (x : Nat) : Nat :=
  rotr w r.1 x ^^^ rotr w r.2.1 x ^^^ (x >>> r.2.2)

/-- The message schedule (6.2.2, 6.4.2 step 1): `acc` holds the words so far, last one first; `n` more are
computed, `W_t = σ1(W_{t-2}) + W_{t-7} + σ0(W_{t-15}) + W_{t-16}`. -/
def schedule (V : Variant) : (n : Nat) → (acc : List Nat) → List Nat
  | 0, acc => acc
  | n + 1, acc =>
    let w := 8 * V.bytes
    force ((smallSigma w V.s1 (acc.getD 1 0) + acc.getD 6 0 + smallSigma w V.s0 (acc.getD 14 0) + acc.getD 15 0) % 2 ^ w)
      fun x => schedule V n (x :: acc)

/-- The working variables `a … h`. -/
structure State where
  a : Nat
  b : Nat
  c : Nat
  d : Nat
  e : Nat
  f : Nat
  g : Nat
  h : Nat

/-- The rounds (step 3), over the pairs of a constant and a schedule word. -/
def rounds (V : Variant) : List (Nat × Nat) → (a b c d e f g h : Nat) → State
  | [], a, b, c, d, e, f, g, h => ⟨a, b, c, d, e, f, g, h⟩
  | kw :: l, a, b, c, d, e, f, g, h =>
    let w := 8 * V.bytes
    force ((h + bigSigma w V.S1 e + ch w e f g + kw.1 + kw.2) % 2 ^ w) fun t1 =>
      force ((d + t1) % 2 ^ w) fun e' =>
        force ((t1 + bigSigma w V.S0 a + maj a b c) % 2 ^ w) fun a' => rounds V l a' a b c e' e f g

/-- One block (steps 1-4). -/
def block (V : Variant) (s : State) (m : Bytes) : State :=
  let ws := (schedule V (V.k.length - 16) ((pieces V.bytes 16 m).map beWord).reverse).reverse
  let r := rounds V (V.k.zip ws) s.a s.b s.c s.d s.e s.f s.g s.h
  let w := 8 * V.bytes
  force ((s.a + r.a) % 2 ^ w) fun a => force ((s.b + r.b) % 2 ^ w) fun b => force ((s.c + r.c) % 2 ^ w) fun c =>
    force ((s.d + r.d) % 2 ^ w) fun d => force ((s.e + r.e) % 2 ^ w) fun e => force ((s.f + r.f) % 2 ^ w) fun f =>
      force ((s.g + r.g) % 2 ^ w) fun g => force ((s.h + r.h) % 2 ^ w) fun h => ⟨a, b, c, d, e, f, g, h⟩

/-- Padding (5.1): a one bit, zeros, and the length in bits in two words. -/
def pad (V : Variant) (m : Bytes) : Bytes :=
  let size := 16 * V.bytes
  m ++ 0x80 :: (List.replicate ((2 * size - 1 - 2 * V.bytes - m.length % size) % size) 0 ++ beBytes (2 * V.bytes) (8 * m.length))

/-- The words of the hash value as bytes. -/
def digest (V : Variant) (s : State) : Bytes :=
  [s.a, s.b, s.c, s.d, s.e, s.f, s.g, s.h].flatMap (beBytes V.bytes)

/-- The hash function. -/
def hash (V : Variant) (m : Bytes) : Bytes :=
  let p := pad V m
  let i := V.iv
  digest V ((pieces (16 * V.bytes) (p.length / (16 * V.bytes)) p).foldl (block V)
    ⟨i.1, i.2.1, i.2.2.1, i.2.2.2.1, i.2.2.2.2.1, i.2.2.2.2.2.1, i.2.2.2.2.2.2.1, i.2.2.2.2.2.2.2⟩)

theorem hash_length (V : Variant) (m : Bytes) : (hash V m).length = 8 * V.bytes := by
  simp only [hash, digest, List.flatMap_cons, List.flatMap_nil, List.length_append, beBytes_length, List.length_nil]
  omega

/-- The constants of SHA-512 (4.2.3, 5.3.5): fractional parts of the cube roots of the first eighty primes, and
of the square roots of the first eight. -/
def sha512V : Variant where
  bytes := 8
  k := [0x428a2f98d728ae22, 0x7137449123ef65cd, 0xb5c0fbcfec4d3b2f, 0xe9b5dba58189dbbc,
   0x3956c25bf348b538, 0x59f111f1b605d019, 0x923f82a4af194f9b, 0xab1c5ed5da6d8118,
   0xd807aa98a3030242, 0x12835b0145706fbe, 0x243185be4ee4b28c, 0x550c7dc3d5ffb4e2,
   0x72be5d74f27b896f, 0x80deb1fe3b1696b1, 0x9bdc06a725c71235, 0xc19bf174cf692694,
   0xe49b69c19ef14ad2, 0xefbe4786384f25e3, 0x0fc19dc68b8cd5b5, 0x240ca1cc77ac9c65,
   0x2de92c6f592b0275, 0x4a7484aa6ea6e483, 0x5cb0a9dcbd41fbd4, 0x76f988da831153b5,
   0x983e5152ee66dfab, 0xa831c66d2db43210, 0xb00327c898fb213f, 0xbf597fc7beef0ee4,
   0xc6e00bf33da88fc2, 0xd5a79147930aa725, 0x06ca6351e003826f, 0x142929670a0e6e70,
   0x27b70a8546d22ffc, 0x2e1b21385c26c926, 0x4d2c6dfc5ac42aed, 0x53380d139d95b3df,
   0x650a73548baf63de, 0x766a0abb3c77b2a8, 0x81c2c92e47edaee6, 0x92722c851482353b,
   0xa2bfe8a14cf10364, 0xa81a664bbc423001, 0xc24b8b70d0f89791, 0xc76c51a30654be30,
   0xd192e819d6ef5218, 0xd69906245565a910, 0xf40e35855771202a, 0x106aa07032bbd1b8,
   0x19a4c116b8d2d0c8, 0x1e376c085141ab53, 0x2748774cdf8eeb99, 0x34b0bcb5e19b48a8,
   0x391c0cb3c5c95a63, 0x4ed8aa4ae3418acb, 0x5b9cca4f7763e373, 0x682e6ff3d6b2b8a3,
   0x748f82ee5defb2fc, 0x78a5636f43172f60, 0x84c87814a1f0ab72, 0x8cc702081a6439ec,
   0x90befffa23631e28, 0xa4506cebde82bde9, 0xbef9a3f7b2c67915, 0xc67178f2e372532b,
   0xca273eceea26619c, 0xd186b8c721c0c207, 0xeada7dd6cde0eb1e, 0xf57d4f7fee6ed178,
   0x06f067aa72176fba, 0x0a637dc5a2c898a6, 0x113f9804bef90dae, 0x1b710b35131c471b,
   0x28db77f523047d84, 0x32caab7b40c72493, 0x3c9ebe0a15c9bebc, 0x431d67c49c100d4c,
   0x4cc5d4becb3e42b6, 0x597f299cfc657e2a, 0x5fcb6fab3ad6faec, 0x6c44198c4a475817]
  iv := (0x6a09e667f3bcc908, 0xbb67ae8584caa73b, 0x3c6ef372fe94f82b, 0xa54ff53a5f1d36f1,
   0x510e527fade682d1, 0x9b05688c2b3e6c1f, 0x1f83d9abfb41bd6b, 0x5be0cd19137e2179)
  S0 := (28, 34, 39)
  S1 := (14, 18, 41)
  s0 := (1, 8, 7)
  s1 := (19, 61, 6)

/-- The constants of SHA-256 (4.2.2, 5.3.3). -/
def sha256V : Variant where
  bytes := 4
  k := [0x428a2f98, 0x71374491, 0xb5c0fbcf, 0xe9b5dba5, 0x3956c25b, 0x59f111f1, 0x923f82a4, 0xab1c5ed5,
   0xd807aa98, 0x12835b01, 0x243185be, 0x550c7dc3, 0x72be5d74, 0x80deb1fe, 0x9bdc06a7, 0xc19bf174,
   0xe49b69c1, 0xefbe4786, 0x0fc19dc6, 0x240ca1cc, 0x2de92c6f, 0x4a7484aa, 0x5cb0a9dc, 0x76f988da,
   0x983e5152, 0xa831c66d, 0xb00327c8, 0xbf597fc7, 0xc6e00bf3, 0xd5a79147, 0x06ca6351, 0x14292967,
   0x27b70a85, 0x2e1b2138, 0x4d2c6dfc, 0x53380d13, 0x650a7354, 0x766a0abb, 0x81c2c92e, 0x92722c85,
   0xa2bfe8a1, 0xa81a664b, 0xc24b8b70, 0xc76c51a3, 0xd192e819, 0xd6990624, 0xf40e3585, 0x106aa070,
   0x19a4c116, 0x1e376c08, 0x2748774c, 0x34b0bcb5, 0x391c0cb3, 0x4ed8aa4a, 0x5b9cca4f, 0x682e6ff3,
   0x748f82ee, 0x78a5636f, 0x84c87814, 0x8cc70208, 0x90befffa, 0xa4506ceb, 0xbef9a3f7, 0xc67178f2]
  iv := (0x6a09e667, 0xbb67ae85, 0x3c6ef372, 0xa54ff53a, 0x510e527f, 0x9b05688c, 0x1f83d9ab, 0x5be0cd19)
  S0 := (2, 13, 22)
  S1 := (6, 11, 25)
  s0 := (7, 18, 3)
  s1 := (17, 19, 10)

end Sha2

/-- SHA-512. -/
def sha512 (m : Bytes) : Bytes := Sha2.hash Sha2.sha512V m

/-- SHA-256. -/
def sha256 (m : Bytes) : Bytes := Sha2.hash Sha2.sha256V m

theorem sha512_length (m : Bytes) : (sha512 m).length = 64 := Sha2.hash_length _ m

theorem sha256_length (m : Bytes) : (sha256 m).length = 32 := Sha2.hash_length _ m

/-- HMAC-SHA-512 (RFC 2104): a key longer than a block is hashed, a shorter one padded with zeros. -/
def hmacSha512 (key m : Bytes) : Bytes :=
  let k := if key.length > 128 then sha512 key else key
  let k := k ++ List.replicate (128 - k.length) 0
  sha512 (k.map (· ^^^ 0x5c) ++ sha512 (k.map (· ^^^ 0x36) ++ m))

theorem hmacSha512_length (key m : Bytes) : (hmacSha512 key m).length = 64 := sha512_length _

/-- `U_1 ⊕ … ⊕ U_c` of PBKDF2 (RFC 8018, 5.2 step 3): `n` further steps from `u` with the running sum `acc`. -/
def pbkdf2Loop (prf : Bytes → Bytes) : (n : Nat) → (u acc : Bytes) → Bytes
  | 0, _, acc => acc
  | n + 1, u, acc => let u' := prf u; pbkdf2Loop prf n u' (List.zipWith (· ^^^ ·) acc u')

/-- Block `i` (counted from 1) of PBKDF2. -/
def pbkdf2Block (prf : Bytes → Bytes) (c : Nat) (salt : Bytes) (i : Nat) : Bytes :=
  let u := prf (salt ++ beBytes 4 i)
  pbkdf2Loop prf (c - 1) u u

/-- PBKDF2-HMAC-SHA-512: `n` bytes from `c` iterations. -/
def pbkdf2Sha512 (c : Nat) (pass salt : Bytes) (n : Nat) : Bytes :=
  (((List.range ((n + 63) / 64)).flatMap fun i => pbkdf2Block (hmacSha512 pass) c salt (i + 1))).take n

theorem pbkdf2Loop_length (prf : Bytes → Bytes) (hp : ∀ m, (prf m).length = 64) (n : Nat) (u acc : Bytes) (h : acc.length = 64) :
    (pbkdf2Loop prf n u acc).length = 64 := by
  induction n generalizing u acc with
  | zero => exact h
  | succ n ih => exact ih _ _ (by simp [List.length_zipWith, hp, h])

theorem pbkdf2Sha512_length (c : Nat) (pass salt : Bytes) (n : Nat) : (pbkdf2Sha512 c pass salt n).length = n := by
  have h : ∀ k, ((List.range k).flatMap fun i => pbkdf2Block (hmacSha512 pass) c salt (i + 1)).length = 64 * k := by
    intro k
    have hb : ∀ i, (pbkdf2Block (hmacSha512 pass) c salt i).length = 64 := fun i =>
      pbkdf2Loop_length _ (hmacSha512_length _) _ _ _ (hmacSha512_length _ _)
    induction k with
    | zero => rfl
    | succ k ih => rw [List.range_succ, List.flatMap_append, List.length_append, ih]; simp [hb]; omega
  unfold pbkdf2Sha512
  rw [List.length_take, h]
  omega

end Cardano.Spec
