import Verif.Spec.Sha2

/-! # ChaCha20, Poly1305 and their AEAD (RFC 8439)

Botan's `ChaCha(20)` with an 8-byte nonce (64-bit block counter) and `ChaCha20Poly1305` with a 12-byte
nonce. -/

namespace Cardano.Spec

open Cardano

namespace ChaCha

/-- Rotation to the left of a 32-bit word. -/
def rotl (n x : Nat) : Nat := ((x <<< n) % 2 ^ 32) ||| (x >>> (32 - n))

/-- The quarter round (2.1). -/
def quarter {α : Type} (a b c d : Nat) (k : Nat → Nat → Nat → Nat → α) : α :=
  force ((a + b) % 2 ^ 32) fun a => force (rotl 16 (d ^^^ a)) fun d =>
    force ((c + d) % 2 ^ 32) fun c => force (rotl 12 (b ^^^ c)) fun b =>
      force ((a + b) % 2 ^ 32) fun a => force (rotl 8 (d ^^^ a)) fun d =>
        force ((c + d) % 2 ^ 32) fun c => force (rotl 7 (b ^^^ c)) fun b => k a b c d

/-- `n` double rounds (2.3). -/
def rounds : (n : Nat) → (v0 v1 v2 v3 v4 v5 v6 v7 v8 v9 v10 v11 v12 v13 v14 v15 : Nat) → List Nat
  | 0, v0, v1, v2, v3, v4, v5, v6, v7, v8, v9, v10, v11, v12, v13, v14, v15 => [v0, v1, v2, v3, v4, v5, v6, v7, v8, v9, v10, v11, v12, v13, v14, v15]
  | n + 1, v0, v1, v2, v3, v4, v5, v6, v7, v8, v9, v10, v11, v12, v13, v14, v15 =>
    quarter v0 v4 v8 v12 fun v0 v4 v8 v12 =>
    quarter v1 v5 v9 v13 fun v1 v5 v9 v13 =>
    quarter v2 v6 v10 v14 fun v2 v6 v10 v14 =>
    quarter v3 v7 v11 v15 fun v3 v7 v11 v15 =>
    quarter v0 v5 v10 v15 fun v0 v5 v10 v15 =>
    quarter v1 v6 v11 v12 fun v1 v6 v11 v12 =>
    quarter v2 v7 v8 v13 fun v2 v7 v8 v13 =>
    quarter v3 v4 v9 v14 fun v3 v4 v9 v14 =>
    rounds n v0 v1 v2 v3 v4 v5 v6 v7 v8 v9 v10 v11 v12 v13 v14 v15

/-- The block function (2.3) on a 32-byte key and the 16 bytes of counter and nonce. -/
def block (key tail : Bytes) : Bytes :=
  let w := fun (l : Bytes) i => beWord ((l.drop (4 * i)).take 4).reverse
  let s := [0x61707865, 0x3320646e, 0x79622d32, 0x6b206574, w key 0, w key 1, w key 2, w key 3, w key 4, w key 5,
    w key 6, w key 7, w tail 0, w tail 1, w tail 2, w tail 3]
  let g := fun i => s.getD i 0
  let r := rounds 10 (g 0) (g 1) (g 2) (g 3) (g 4) (g 5) (g 6) (g 7) (g 8) (g 9) (g 10) (g 11) (g 12) (g 13) (g 14) (g 15)
  (List.range 16).flatMap fun i => leBytes 4 ((g i + r.getD i 0) % 2 ^ 32)

theorem block_length (key tail : Bytes) : (block key tail).length = 64 := by
  have : List.range 16 = [0, 1, 2, 3, 4, 5, 6, 7, 8, 9, 10, 11, 12, 13, 14, 15] := by decide
  simp [block, this, leBytes_length]

/-- `n` bytes of key stream starting at block `c`; the counter takes `cs` bytes. -/
def stream (key nonce : Bytes) (cs c n : Nat) : Bytes :=
  ((List.range ((n + 63) / 64)).flatMap fun i => block key (leBytes cs (c + i) ++ nonce)).take n

theorem stream_length (key nonce : Bytes) (cs c n : Nat) : (stream key nonce cs c n).length = n := by
  have h : ∀ k, ((List.range k).flatMap fun i => block key (leBytes cs (c + i) ++ nonce)).length = 64 * k := by
    intro k
    induction k with
    | zero => rfl
    | succ k ih => rw [List.range_succ, List.flatMap_append, List.length_append, ih]; simp [block_length]; omega
  unfold stream
  rw [List.length_take, h]
  omega

end ChaCha

/-- Botan's `ChaCha(20)`: with a nonce of 8 bytes the block counter has 64 bits, with 12 bytes it has 32. -/
def chacha20 (key nonce : Bytes) (n : Nat) : Bytes := ChaCha.stream key nonce (16 - nonce.length) 0 n

theorem chacha20_length (key nonce : Bytes) (n : Nat) : (chacha20 key nonce n).length = n := ChaCha.stream_length _ _ _ _ n

/-- Poly1305 (2.5) of a message with a 32-byte one-time key. -/
def poly1305 (key m : Bytes) : Bytes :=
  let r := beWord (key.take 16).reverse &&& 0x0ffffffc0ffffffc0ffffffc0fffffff
  let s := beWord (key.drop 16).reverse
  let a := (pieces 16 ((m.length + 15) / 16) m).foldl
    (fun acc b => force ((acc + beWord (b ++ [1]).reverse) * r % (2 ^ 130 - 5)) id) 0
  leBytes 16 ((a + s) % 2 ^ 128)

/-- Zeros up to a multiple of 16 bytes. -/
def pad16 (m : Bytes) : Bytes := m ++ List.replicate ((16 - m.length % 16) % 16) 0

/-- The tag of a ciphertext without associated data (2.8). -/
def aeadTag (key nonce c : Bytes) : Bytes :=
  poly1305 (ChaCha.stream key nonce 4 0 32) (pad16 c ++ leBytes 8 0 ++ leBytes 8 c.length)

/-- ChaCha20-Poly1305 encryption without associated data (2.8): ciphertext and tag. -/
def aeadSeal (key nonce plain : Bytes) : Bytes :=
  let c := List.zipWith (· ^^^ ·) plain (ChaCha.stream key nonce 4 1 plain.length)
  c ++ aeadTag key nonce c

/-- Decryption: the plaintext if the tag is right. -/
def aeadOpen (key nonce cipher : Bytes) : Option Bytes :=
  if cipher.length < 16 then none
  else
    let c := cipher.take (cipher.length - 16)
    if cipher.drop (cipher.length - 16) = aeadTag key nonce c then
      some (List.zipWith (· ^^^ ·) c (ChaCha.stream key nonce 4 1 c.length))
    else none

theorem aeadTag_length (key nonce c : Bytes) : (aeadTag key nonce c).length = 16 := by
  simp [aeadTag, poly1305, leBytes_length]

theorem aeadSeal_length (key nonce plain : Bytes) : (aeadSeal key nonce plain).length = plain.length + 16 := by
  simp [aeadSeal, aeadTag_length, List.length_zipWith, ChaCha.stream_length]

theorem zipWith_xor_twice (a b : Bytes) (h : a.length ≤ b.length) :
    List.zipWith (· ^^^ ·) (List.zipWith (· ^^^ ·) a b) b = a := by
  induction a generalizing b with
  | nil => simp
  | cons x a ih =>
    cases b with
    | nil => simp at h
    | cons y b =>
      simp only [List.zipWith_cons_cons, List.cons.injEq]
      exact ⟨by rw [UInt8.xor_assoc, UInt8.xor_self, UInt8.xor_zero], ih b (by simpa using h)⟩

theorem aeadOpen_aeadSeal (key nonce plain : Bytes) : aeadOpen key nonce (aeadSeal key nonce plain) = some plain := by
  have hl := aeadSeal_length key nonce plain
  have hs := ChaCha.stream_length key nonce 4 1 plain.length
  have hc : (List.zipWith (· ^^^ ·) plain (ChaCha.stream key nonce 4 1 plain.length)).length = plain.length := by
    simp [List.length_zipWith, hs]
  unfold aeadOpen
  rw [if_neg (by omega), hl, Nat.add_sub_cancel]
  have h1 : (aeadSeal key nonce plain).take plain.length = List.zipWith (· ^^^ ·) plain (ChaCha.stream key nonce 4 1 plain.length) := by
    unfold aeadSeal
    rw [List.take_append_of_le_length (by omega), List.take_of_length_le (by omega)]
  have h2 : (aeadSeal key nonce plain).drop plain.length = aeadTag key nonce (List.zipWith (· ^^^ ·) plain (ChaCha.stream key nonce 4 1 plain.length)) := by
    unfold aeadSeal
    rw [List.drop_append, hc]
    simp [hs]
  dsimp only
  rw [h1, h2, if_pos rfl, hc, zipWith_xor_twice _ _ (by omega)]

end Cardano.Spec
