import Verif.Model.Cbor
import Verif.Model.Mnemonic
import Verif.Spec.Ed25519

/-! # Model of `src/bip32_ed25519.cpp` and `include/cardano/bip32_ed25519.hpp`

Arrays of fixed size are byte lists; the extents are part of the C++ types, so the model's
theorems assume them as length hypotheses (`WF`). -/

namespace Cardano.Bip32

open Cardano Cardano.Ed

/-- Botan's primitives used here, as parameters with their output lengths. -/
structure Prims where
  /-- HMAC(SHA-512): key, message -/
  hmac : Bytes → Bytes → Bytes
  sha512 : Bytes → Bytes
  sha256 : Bytes → Bytes
  blake256 : Bytes → Bytes
  /-- PBKDF2(HMAC-SHA-512, iterations): passphrase, salt, output length -/
  pbkdf2 : (iterations : Nat) → Bytes → Bytes → (outLen : Nat) → Bytes
  /-- ChaCha(20) keystream: key, nonce, length -/
  chacha : Bytes → Bytes → Nat → Bytes
  hmac_length : ∀ k m, (hmac k m).length = 64
  sha512_length : ∀ m, (sha512 m).length = 64
  sha256_length : ∀ m, (sha256 m).length = 32
  blake256_length : ∀ m, (blake256 m).length = 32
  pbkdf2_length : ∀ i p s n, (pbkdf2 i p s n).length = n
  chacha_length : ∀ k v n, (chacha k v n).length = n

/-- `enum class DerivationMode` (include/cardano/bip32_ed25519.hpp:72-79). -/
inductive Mode where
  | v1 | v2
  deriving DecidableEq, Repr

/-- `HardenIndex` (include/cardano/bip32_ed25519.hpp:66-70); `index` is a `uint32_t`. -/
def hardenIndex (index : UInt32) : UInt32 :=
  if index < 0x80000000 then index + 0x80000000 else index

/-- `index_is_hardened` (src/bip32_ed25519.cpp:62-65). -/
def isHardened (index : UInt32) : Bool := index &&& 0x80000000 != 0

/-- `serialize_index32` (src/bip32_ed25519.cpp:68-92): V1 big endian, V2 little endian. -/
def serializeIndex (index : UInt32) : Mode → Bytes
  | .v1 => [(index >>> 24).toUInt8, (index >>> 16).toUInt8, (index >>> 8).toUInt8, index.toUInt8]
  | .v2 => [index.toUInt8, (index >>> 8).toUInt8, (index >>> 16).toUInt8, (index >>> 24).toUInt8]

/-- `data[i] = f(data[i])` on a buffer; an index past the end is undefined. -/
def modAt (i : Nat) (f : UInt8 → UInt8) (d : Bytes) : Out Bytes :=
  match d[i]? with
  | some b => .ok (d.set i (f b))
  | none => .ub

/-- `tweak_bits_byron` (src/bip32_ed25519.cpp:94-102). -/
def tweakByron (d : Bytes) : Out Bytes := do
  let d ← modAt 0 (· &&& 0b11111000) d
  let d ← modAt 31 (· &&& 0b01111111) d
  modAt 31 (· ||| 0b01000000) d

/-- `tweak_bits_icarus` (src/bip32_ed25519.cpp:104-114). -/
def tweakIcarus (d : Bytes) : Out Bytes := do
  let d ← modAt 0 (· &&& 0b11111000) d
  let d ← modAt 31 (· &&& 0b00011111) d
  modAt 31 (· ||| 0b01000000) d

/-- One attempt of `hash_repeatedly`: the tweaked hash and the right half of the MAC
(src/bip32_ed25519.cpp:130-144). -/
def hashAttempt (P : Prims) (key : Bytes) (count : Nat) : Out (Bytes × Bytes) := do
  let tag := P.hmac key (ascii "Root Seed Chain " ++ ascii (toString count))
  let prv ← tweakByron (P.sha512 (tag.take 32))
  return (prv, tag.drop 32)

/-- `hash_repeatedly(key, count)` (src/bip32_ed25519.cpp:116-149) with `fuel` attempts
left before `count > MAX_ITERATIONS`; started with `count = 1`, `fuel = 1000`. -/
def hashRepeatedly (P : Prims) (key : Bytes) : (fuel count : Nat) → Out Bytes
  | 0, _ => .throw .runtimeError
  | fuel + 1, count => do
    let (prv, iR) ← hashAttempt P key count
    match prv[31]? with
    | none => .ub
    | some b => if b &&& 0b00100000 ≠ 0 then hashRepeatedly P key fuel (count + 1) else return prv ++ iR

/-- `hash_seed` (src/bip32_ed25519.cpp:151-165). -/
def hashSeed (P : Prims) (seed : Bytes) : Bytes :=
  Cbor.enc (.bstr (P.blake256 (Cbor.enc (.bstr seed))))

/-- A private key: 64-byte extended key and 32-byte chain code
(include/cardano/bip32_ed25519.hpp:147-152). -/
structure Prv where
  key : Bytes
  cc : Bytes
  deriving DecidableEq, Repr

/-- A public key: 32-byte point and 32-byte chain code
(include/cardano/bip32_ed25519.hpp:88-93). -/
structure Pub where
  key : Bytes
  cc : Bytes
  deriving DecidableEq, Repr

/-- Sizes guaranteed by the C++ types. -/
def Prv.WF (k : Prv) : Prop := k.key.length = 64 ∧ k.cc.length = 32
/-- Sizes guaranteed by the C++ types. -/
def Pub.WF (k : Pub) : Prop := k.key.length = 32 ∧ k.cc.length = 32

/-- `PublicKey(span<96>)`-style construction: split an extended key
(src/bip32_ed25519.cpp:416-420). -/
def prvOfX (x : Bytes) : Prv := ⟨x.take 64, x.drop 64⟩
/-- `PrivateKey::xbytes` (src/bip32_ed25519.cpp:512-520). -/
def Prv.xbytes (k : Prv) : Bytes := k.key ++ k.cc
/-- `PublicKey(span<64>)` (src/bip32_ed25519.cpp:301-307). -/
def pubOfX (x : Bytes) : Pub := ⟨x.take 32, x.drop 32⟩
/-- `PublicKey::xbytes` (src/bip32_ed25519.cpp:322-330). -/
def Pub.xbytes (k : Pub) : Bytes := k.key ++ k.cc

/-- `reduce_scalar_mod_l` (src/bip32_ed25519.cpp:170-178): zero-extend to 64 bytes, reduce. -/
def reduceModL (s : Bytes) : Bytes := scalarReduce (s ++ List.replicate 32 0)

/-- `bip32_ed25519_extend` (src/bip32_ed25519.cpp:182-194). -/
def extend (P : Prims) (seed : Bytes) : Out Bytes := do
  let d ← modAt 0 (· &&& 0b11111000) (P.sha512 seed)
  let d ← modAt 31 (· &&& 0b01111111) d
  modAt 31 (· ||| 0b01000000) d

/-- `bip32_ed25519_publickey` (src/bip32_ed25519.cpp:198-211). -/
def publickey (C : Curve) (secret : Bytes) : Out Bytes :=
  match baseMul C (reduceModL (secret.take 32)) with
  | (q, true) => .ok q
  | (_, false) => .throw .runtimeError

/-- `bip32_ed25519_point_add` (src/bip32_ed25519.cpp:215-230). -/
def pointAddOrThrow (C : Curve) (p q : Bytes) : Out Bytes :=
  match pointAdd C p q with
  | some r => .ok r
  | none => .throw .runtimeError

/-- `bip32_ed25519_scalar_add` (src/bip32_ed25519.cpp:233-245). -/
def scalarAddKeys (k1 k2 : Bytes) : Bytes :=
  scalarAdd (reduceModL (k1.take 32)) (reduceModL (k2.take 32))

/-- `bip32_ed25519_sign` (src/bip32_ed25519.cpp:251-292). -/
def signExt (C : Curve) (P : Prims) (msg secret pub : Bytes) : Out Bytes :=
  let r := scalarReduce (P.sha512 (secret.drop 32 ++ msg))
  match baseMul C r with
  | (_, false) => .throw .runtimeError
  | (rEnc, true) =>
    let hram := scalarReduce (P.sha512 (rEnc ++ pub ++ msg))
    let a := reduceModL (secret.take 32)
    let s := scalarAdd (scalarMul hram a) r
    .ok (rEnc ++ s)

/-- `PrivateKey::publicKey` (src/bip32_ed25519.cpp:522-526). -/
def Prv.publicKey (C : Curve) (k : Prv) : Out Pub := do
  let p ← publickey C k.key
  return ⟨p, k.cc⟩

/-- `PrivateKey::sign` (src/bip32_ed25519.cpp:528-536). -/
def Prv.sign (C : Curve) (P : Prims) (k : Prv) (msg : Bytes) : Out Bytes := do
  let p ← k.publicKey C
  signExt C P msg k.key p.key

/-- `PublicKey::verifySignature` (src/bip32_ed25519.cpp:332-340). -/
def Pub.verify (C : Curve) (P : Prims) (k : Pub) (msg sig : Bytes) : Bool :=
  verifyDetached C P.sha512 sig msg k.key

/-- The "multiply by 8" loop (src/bip32_ed25519.cpp:374-379, 387-392, 573-578, 598-603):
`mask` is 0x8 in V1 and 0x7 in V2. -/
def mul8 (mask : Nat) : Bytes → (prevAcc : Nat) → Bytes
  | [], _ => []
  | z :: zs, p => UInt8.ofNat ((z.toNat <<< 3) + (p &&& mask)) :: mul8 mask zs (z.toNat >>> 5)

/-- `zl8` (64 bytes, zero padded), (src/bip32_ed25519.cpp:364-396, 566-604). -/
def zl8 (mode : Mode) (z : Bytes) : Bytes :=
  match mode with
  | .v1 => mul8 0x8 (z.take 32) 0 ++ List.replicate 32 0
  | .v2 => mul8 0x7 (z.take 28) 0 ++ [UInt8.ofNat ((z.getD 27 0).toNat >>> 5)] ++ List.replicate 35 0

/-- Byte-wise addition with a running carry (src/bip32_ed25519.cpp:606-613 with `r >>= 8`,
615-624 with `carry = r >= 0x100`). -/
def addCarry : Bytes → Bytes → (r : Nat) → Bytes
  | a :: as, b :: bs, r =>
    let s := a.toNat + b.toNat + r
    UInt8.ofNat s :: addCarry as bs (s >>> 8)
  | _, _, _ => []

/-- Byte-wise addition that drops every carry (src/bip32_ed25519.cpp:584-591). -/
def addNoCarry (a b : Bytes) : Bytes :=
  List.zipWith (fun x y => UInt8.ofNat ((x.toNat + y.toNat) &&& 0xff)) a b

/-- HMAC input of child derivation from a tag, key bytes and index
(src/bip32_ed25519.cpp:358-362, 401-405, 549-561, 631-642). -/
def macInput (tag : UInt8) (key : Bytes) (index : UInt32) (mode : Mode) : Bytes :=
  tag :: (key ++ serializeIndex index mode)

/-- `PublicKey::deriveChild` (src/bip32_ed25519.cpp:342-414). -/
def Pub.deriveChild (C : Curve) (P : Prims) (k : Pub) (index : UInt32) (mode : Mode) : Out Pub := do
  if isHardened index then .throw .invalidArgument
  else
    let z := P.hmac k.cc (macInput 0x02 k.key index mode)
    let pubNew ← publickey C (zl8 mode z)
    let pubNew ← pointAddOrThrow C pubNew k.key
    let h := P.hmac k.cc (macInput 0x03 k.key index mode)
    return ⟨pubNew, h.drop 32⟩

/-- `PrivateKey::deriveChild` (src/bip32_ed25519.cpp:538-648). -/
def Prv.deriveChild (C : Curve) (P : Prims) (k : Prv) (index : UInt32) (mode : Mode) : Out Prv := do
  let p ← k.publicKey C
  let z := P.hmac k.cc (if isHardened index then macInput 0x00 k.key index mode else macInput 0x02 p.key index mode)
  let res := match mode with
    | .v1 => scalarAddKeys (zl8 .v1 z) k.key ++ addNoCarry (z.drop 32) (k.key.drop 32)
    | .v2 => addCarry ((zl8 .v2 z).take 32) (k.key.take 32) 0 ++ addCarry (z.drop 32) (k.key.drop 32) 0
  let h := P.hmac k.cc (if isHardened index then macInput 0x01 k.key index mode else macInput 0x03 p.key index mode)
  return ⟨res, h.drop 32⟩

/-- `PrivateKey::generate` (src/bip32_ed25519.cpp:433-461) from the random `seed`. -/
def generate (P : Prims) (seed : Bytes) : Out Prv := do
  let key ← tweakIcarus (P.pbkdf2 4096 [] seed 96)
  return prvOfX key

/-- `PrivateKey::fromSeed` (src/bip32_ed25519.cpp:463-477). -/
def fromSeed (P : Prims) (seed : Bytes) : Out Prv := do
  let key ← extend P seed
  return ⟨key, P.sha256 (1 :: seed)⟩

/-- `PrivateKey::fromMnemonic` (src/bip32_ed25519.cpp:479-503). -/
def fromMnemonic (P : Prims) (mn : Mnemonic.Mn) (passphrase : Bytes) : Out Prv := do
  let seed ← Mnemonic.toSeed mn
  let key ← tweakIcarus (P.pbkdf2 4096 passphrase seed 96)
  return prvOfX key

/-- `PrivateKey::fromMnemonicByron` (src/bip32_ed25519.cpp:505-510). -/
def fromMnemonicByron (P : Prims) (mn : Mnemonic.Mn) : Out Prv := do
  let seed ← Mnemonic.toSeed mn
  let key ← hashRepeatedly P (hashSeed P seed) 1000 1
  return prvOfX key

/-- Byte-wise exclusive or. -/
def xorBytes (a b : Bytes) : Bytes := List.zipWith (· ^^^ ·) a b

/-- The salt literal with its terminating zero (src/bip32_ed25519.cpp:655, 706). -/
def salt : Bytes := ascii "encrypted wallet salt" ++ [0]

/-- Password stretching and ChaCha(20) over the 64 key bytes
(src/bip32_ed25519.cpp:654-675, 706-721). -/
def applyCipher (P : Prims) (password key : Bytes) : Bytes :=
  let buf := P.pbkdf2 15000 password salt 40
  xorBytes key (P.chacha (buf.take 32) (buf.drop 32) 64)

/-- `PrivateKey::encrypt` (src/bip32_ed25519.cpp:650-678); the encrypted key object holds
64 + 32 bytes like `Prv`. -/
def Prv.encrypt (P : Prims) (k : Prv) (password : Bytes) : Prv :=
  if password.isEmpty then k else ⟨applyCipher P password k.key, k.cc⟩

/-- `EncryptedPrivateKey::decrypt` (src/bip32_ed25519.cpp:699-724). -/
def decrypt (P : Prims) (e : Prv) (password : Bytes) : Prv :=
  ⟨if !password.isEmpty then applyCipher P password e.key else e.key, e.cc⟩

end Cardano.Bip32
