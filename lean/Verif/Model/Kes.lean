import Verif.Model.Util
import Verif.Spec.Crypto

/-! # Model of the KES keys (include/cardano/kes.hpp, src/kes.cpp)

The template parameter `Depth` becomes an argument `d`; the library instantiates
`d ≤ 7` (`MAX_KES_DEPTH`), the model accepts every `d`.  Fixed-size arrays and spans are
byte lists; a `span::first<N>()` beyond the end, or a copy past the end of an array, is
undefined behaviour.  Ed25519 and Blake2b are the parameter `C`. -/

namespace Cardano.Kes

variable (C : SigHash)

/-- `KesDepth::total()` (kes.hpp:121-124), exact for the supported depths. -/
def total (d : Nat) : Nat := 2 ^ d

/-- `SumKesPrivateKey<d>::size` (kes.hpp:421-422). -/
def keySize (d : Nat) : Nat := 32 + d * 96

/-- `SumKesSignature<d>::size` (kes.hpp:208). -/
def sigSize (d : Nat) : Nat := 64 + d * 64

/-- `SumKesCompactSignature<d>::size` (kes.hpp:304). -/
def compactSize (d : Nat) : Nat := 64 + (d + 1) * 32

/-- `KesSeed::split` (kes.cpp:29-47): left and right seed; the caller's array is zeroed. -/
def splitLeft (seed : Bytes) : Bytes := C.hash (1 :: seed)
/-- Right half of `KesSeed::split` (kes.cpp:41-44). -/
def splitRight (seed : Bytes) : Bytes := C.hash (2 :: seed)

/-- `secure_scrub_memory` of a 32-byte array. -/
def zeros32 : Bytes := List.replicate 32 0

/-- `KesPublicKey::hash_pair` (kes.cpp:49-57). -/
def hashPair (a b : Bytes) : Bytes := C.hash (a ++ b)

/-- `std::copy` of `data` into an array at offset `off`. -/
def writeAt (buf : Bytes) (off : Nat) (data : Bytes) : Out Bytes :=
  if off + data.length ≤ buf.length then .ok (buf.take off ++ data ++ buf.drop (off + data.length)) else .ub

/-- `span::first<n>()`. -/
def first (buf : Bytes) (n : Nat) : Out Bytes := if n ≤ buf.length then .ok (buf.take n) else .ub

/-- `span::subspan(off, n)`. -/
def slice (buf : Bytes) (off n : Nat) : Out Bytes :=
  if off + n ≤ buf.length then .ok ((buf.drop off).take n) else .ub

/-- A signing key object: the buffer `prv_` (key, then 4 bytes period) and the member
`period_` (kes.hpp:998-999). -/
structure Key where
  prv : Bytes
  period_ : Nat
  deriving DecidableEq, Repr

/-- `SumKesPrivateKey<d>::SumKesPrivateKey(bytes)` (kes.hpp:431-450). -/
def fromBytes (d : Nat) (bytes : Bytes) : Out Key :=
  if bytes.length ≠ keySize d ∧ bytes.length ≠ keySize d + 4 then .throw .runtimeError
  else if bytes.length = keySize d then .ok ⟨bytes ++ List.replicate 4 0, 0⟩
  else .ok ⟨bytes, 0⟩

/-- `SumKesPrivateKey<d>::keygen(key_buffer, seed)` (kes.hpp:462-524), given
`keygen_buffer` of the same depth.  The buffer argument is the caller's scratch array
of `keySize d + 4` bytes, the seed has the static extent 32.  Returns key, public key and
the content of the caller's seed array afterwards. -/
def keygenWith (kb : Bytes → Option Bytes → Out (Bytes × Option Bytes × Bytes)) (d : Nat)
    (keyBuffer seed : Bytes) : Out (Key × Bytes × Bytes) := do
  if keyBuffer.length ≠ keySize d + 4 then .throw .runtimeError else
  if seed.length ≠ 32 then .throw .runtimeError else
  match d with
  | 0 =>
    let buf ← writeAt keyBuffer 0 seed
    let buf ← writeAt buf (keySize 0) (Util.packBE 4 0)
    let k ← fromBytes 0 buf
    return (k, C.pub seed, zeros32)
  | d + 1 =>
    let sub ← first keyBuffer (keySize (d + 1))
    let (sub', sd, pk) ← kb sub (some seed)
    let buf ← writeAt keyBuffer 0 sub'
    let buf ← writeAt buf (keySize (d + 1)) (Util.packBE 4 0)
    let k ← fromBytes (d + 1) buf
    return (k, pk, sd.getD seed)

/-- `SumKesPrivateKey<d>::keygen_buffer(in_buffer, op_seed)` (kes.hpp:705-812).  Returns the
buffer, the caller's seed array afterwards (if one was passed) and the public key. -/
def keygenBuffer : Nat → Bytes → Option Bytes → Out (Bytes × Option Bytes × Bytes)
  | 0, buf, some seed => do
    if seed.length ≠ keySize 0 then .throw .runtimeError else
    let buf ← writeAt buf 0 seed
    return (buf, some zeros32, C.pub seed)
  | 0, buf, none => do
    if buf.length ≠ keySize 0 + 32 then .throw .runtimeError else
    let seed := buf.drop (keySize 0)
    let buf ← writeAt buf (keySize 0) zeros32
    let buf ← writeAt buf 0 seed
    return (buf, none, C.pub seed)
  | d + 1, buf, opSeed => do
    -- split the seed (kes.hpp:748-783)
    let (buf, opSeed, r0, seed) ←
      (match opSeed with
      | some s =>
        if buf.length ≠ keySize (d + 1) then .throw .runtimeError else
        if s.length ≠ 32 then .throw .runtimeError else
        .ok (buf, some zeros32, splitLeft C s, splitRight C s)
      | none =>
        if buf.length ≠ keySize (d + 1) + 32 then .throw .runtimeError else do
        let s ← slice buf (keySize (d + 1)) 32
        let buf ← writeAt buf (keySize (d + 1)) zeros32
        return (buf, none, splitLeft C s, splitRight C s))
    -- store the right seed (kes.hpp:785-791)
    let buf ← writeAt buf (keySize d) seed
    -- left subtree in place, right subtree in a temporary (kes.hpp:793-802)
    let sub ← first buf (keySize d)
    let (sub', _, pk0) ← keygenBuffer d sub (some r0)
    let buf ← writeAt buf 0 sub'
    let (_, pk1, _) ← keygenWith C (keygenBuffer d) d (List.replicate (keySize d + 4) 0) seed
    -- public keys (kes.hpp:804-811)
    let buf ← writeAt buf (keySize d + 32) pk0
    let buf ← writeAt buf (keySize d + 32 + 32) pk1
    return (buf, opSeed, hashPair C pk0 pk1)

/-- `SumKesPrivateKey<d>::keygen` on a zeroed scratch array, as called by `generate()`
(kes.hpp:529-546) with the random seed made explicit. -/
def keygen (d : Nat) (seed : Bytes) : Out (Key × Bytes × Bytes) :=
  keygenWith C (keygenBuffer C d) d (List.replicate (keySize d + 4) 0) seed

/-- `publicKey()` (kes.hpp:549-564); exists only for depth ≥ 1. -/
def publicKey (d : Nat) (k : Key) : Out Bytes := do
  let off := keySize (d + 1) - 64
  let a ← slice k.prv off 32
  let b ← slice k.prv (off + 32) 32
  return hashPair C a b

/-- `update_buffer(in_buffer, period)` (kes.hpp:814-864).  The first component is the
buffer after the call, also when it throws.  `uint32_t` arithmetic. -/
def updateBuffer : Nat → Bytes → Nat → Bytes × Out Unit
  | 0, buf, _ => (buf, .throw .runtimeError)
  | d + 1, buf, period =>
    let next := (period + 1) % 2 ^ 32
    if next = total (d + 1) then (buf, .throw .runtimeError)
    else if next < 2 ^ d then
      match first buf (keySize d) with
      | .ok sub =>
        let r := updateBuffer d sub period
        (r.1 ++ buf.drop (keySize d), r.2)
      | _ => (buf, .ub)
    else if next = 2 ^ d then
      match first buf (keySize d + 32) with
      | .ok sub =>
        match keygenBuffer C d sub none with
        | .ok (sub', _, _) => (sub' ++ buf.drop (keySize d + 32), .ok ())
        | .throw e => (buf, .throw e)
        | .ub => (buf, .ub)
      | _ => (buf, .ub)
    else
      match first buf (keySize d) with
      | .ok sub =>
        let r := updateBuffer d sub ((period + 2 ^ 32 - 2 ^ d) % 2 ^ 32)
        (r.1 ++ buf.drop (keySize d), r.2)
      | _ => (buf, .ub)

/-- `period()` (kes.hpp:608-620). -/
def period (d : Nat) (k : Key) : Nat :=
  match d with
  | 0 => 0
  | d + 1 => Util.unpackBE 4 (k.prv.drop (keySize (d + 1)))

/-- `update()` (kes.hpp:585-605): the key after the call and how the call ended. -/
def update (d : Nat) (k : Key) : Key × Out Unit :=
  match d with
  | 0 => (k, .throw .runtimeError)
  | d + 1 =>
    let cur := period (d + 1) k
    match updateBuffer C (d + 1) k.prv cur with
    | (buf, .ok ()) =>
      (⟨buf.take (keySize (d + 1)) ++ Util.packBE 4 (cur + 1), (cur + 1) % 2 ^ 32⟩, .ok ())
    | (buf, .throw e) => (⟨buf, k.period_⟩, .throw e)
    | (buf, .ub) => (⟨buf, k.period_⟩, .ub)

/-- `sign_from_buffer` (kes.hpp:866-920). -/
def signFromBuffer : Nat → Bytes → Bytes → Out Bytes
  | 0, buf, msg =>
    if buf.length ≠ 32 then .throw .invalidArgument else .ok (C.sign buf msg)
  | d + 1, buf, msg => do
    let sub ← first buf (keySize d)
    let sigma ← signFromBuffer d sub msg
    let off := keySize (d + 1) - 64
    let a ← slice buf off 32
    let b ← slice buf (off + 32) 32
    return sigma ++ a ++ b

/-- `sign(msg)` (kes.hpp:625-641). -/
def sign (d : Nat) (k : Key) (msg : Bytes) : Out Bytes :=
  match d with
  | 0 => do let sk ← first k.prv 32; return C.sign sk msg
  | d + 1 => signFromBuffer C (d + 1) k.prv msg

/-- `sign_compact_from_buffer` (kes.hpp:922-996). -/
def signCompactFromBuffer : Nat → Bytes → Bytes → Nat → Out Bytes
  | 0, buf, msg, _ => do
    let sk ← first buf 32
    return C.sign sk msg ++ C.pub sk
  | d + 1, buf, msg, period =>
    if period < 2 ^ d then do
      let pk ← slice buf (keySize d + 32 + 32) 32
      let sub ← first buf (keySize d)
      let sigma ← signCompactFromBuffer d sub msg period
      return sigma ++ pk
    else do
      let pk ← slice buf (keySize d + 32) 32
      let sub ← first buf (keySize d)
      let sigma ← signCompactFromBuffer d sub msg (period - 2 ^ d)
      return sigma ++ pk

/-- `signCompact(msg)` (kes.hpp:647-673).  At depth 0 the function writes the 32-byte public
key behind a 64-byte array: undefined behaviour.  At depth ≥ 1 it uses the *member*
`period_`, not the stored period. -/
def signCompact (d : Nat) (k : Key) (msg : Bytes) : Out Bytes :=
  match d with
  | 0 => do
    let sk ← first k.prv 32
    let sigBytes := List.replicate (sigSize 0) 0
    let sigBytes ← writeAt sigBytes 64 (C.pub sk)
    let sigBytes ← writeAt sigBytes 0 (C.sign sk msg)
    if sigBytes.length ≠ compactSize 0 then .throw .runtimeError else return sigBytes
  | d + 1 => signCompactFromBuffer C (d + 1) k.prv msg k.period_

/-- `SumKesSignature<d>(bytes)` (kes.hpp:212-221): only the right size is accepted. -/
def sigFromBytes (d : Nat) (bytes : Bytes) : Out Bytes :=
  if bytes.length ≠ sigSize d then .throw .runtimeError else .ok bytes

/-- `SumKesSignature<d>::verify(period, pk, msg)` (kes.hpp:234-275). -/
def verify : Nat → Nat → Bytes → Bytes → Bytes → Out Bool
  | 0, _, pk, msg, sig => .ok (C.verify pk msg sig)
  | d + 1, period, pk, msg, sig =>
    let lhs := (sig.drop (sig.length - 64)).take 32
    let rhs := sig.drop (sig.length - 32)
    if hashPair C lhs rhs ≠ pk then .throw .invalidArgument else do
    let sigma ← sigFromBytes d (sig.take (sigSize d))
    if period < 2 ^ d then verify d period lhs msg sigma
    else verify d (period - 2 ^ d) rhs msg sigma

/-- `SumKesCompactSignature<d>::recompute(period, msg)` (kes.hpp:330-364). -/
def recompute : Nat → Nat → Bytes → Bytes → Out Bytes
  | 0, _, msg, sig =>
    let s := sig.take 64
    let pk := sig.drop (sig.length - 32)
    if C.verify pk msg s = false then .throw .runtimeError else .ok pk
  | d + 1, period, msg, sig => do
    let pk := sig.drop (sig.length - 32)
    let sigma := sig.take (compactSize d)
    if sigma.length ≠ compactSize d then .throw .runtimeError else
    if period < 2 ^ d then do
      let r ← recompute d period msg sigma
      return hashPair C r pk
    else do
      let r ← recompute d (period - 2 ^ d) msg sigma
      return hashPair C pk r

/-- `SumKesCompactSignature<d>::verify(period, pk, msg)` (kes.hpp:370-392). -/
def verifyCompact (d period : Nat) (pk msg sig : Bytes) : Out Bool :=
  match d with
  | 0 => .ok (C.verify pk msg (sig.take 64))
  | d + 1 => do
    let r ← recompute C (d + 1) period msg sig
    return pk == r

/-- `drop()` (kes.hpp:566-570): the buffer is overwritten with zeros, period bytes included; the
member `period_` stays. -/
def drop (k : Key) : Key := ⟨List.replicate k.prv.length 0, k.period_⟩

/-- `n` successful calls of `update()` one after the other. -/
def updates (d : Nat) : Nat → Key → Out Key
  | 0, k => .ok k
  | n + 1, k => do
    let k ← updates d n k
    match update C d k with
    | (k', .ok ()) => .ok k'
    | (_, .throw e) => .throw e
    | (_, .ub) => .ub

end Cardano.Kes
