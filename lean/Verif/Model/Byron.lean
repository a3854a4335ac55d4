import Verif.Model.Cbor
import Verif.Model.Base58

/-! # Model of Byron-era addresses (src/address.cpp:405-691) -/

namespace Cardano.Byron
open Cbor

/-- One bit of CRC-32 (reflected, polynomial 0xEDB88320), as in Botan's `CRC32`. -/
def crcShift (s : BitVec 32) : BitVec 32 :=
  (s >>> 1) ^^^ (if s.getLsbD 0 then 0xEDB88320#32 else 0#32)

/-- Feed one message bit. -/
def crcBit (s : BitVec 32) (b : Bool) : BitVec 32 := crcShift (s ^^^ (if b then 1#32 else 0#32))

/-- The bits of a byte string in CRC order: bytes in order, least significant bit first. -/
def bitsOf (bs : Bytes) : List Bool :=
  bs.flatMap fun b => (List.range 8).map fun i => b.toNat.testBit i

/-- `compute_crc32` (src/address.cpp:406-413): Botan's CRC32 (a dependency, modelled by its
definition: initial value and final complement all ones), its 4 bytes read big-endian. -/
def crc32 (bs : Bytes) : Nat :=
  (((bitsOf bs).foldl crcBit 0xFFFFFFFF#32) ^^^ 0xFFFFFFFF#32).toNat

/-- `ByronAddress::Type` (include/cardano/address.hpp:309-314). -/
inductive AddrType | pubkey | script | redeem
  deriving DecidableEq, Repr

/-- `ByronAddress` (include/cardano/address.hpp:266-380): root (28 bytes), attributes, type. -/
structure Addr where
  root : Bytes
  ciphertext : Bytes
  magic : Nat
  type : AddrType
  deriving DecidableEq, Repr

/-- `typeToUint` (src/address.cpp:425-444); a redeem address gets 1, the script number. -/
def typeToUint : AddrType → Nat
  | .pubkey => 0
  | .script => 1
  | .redeem => 1

/-- `uintToType` (src/address.cpp:446-465). -/
def uintToType : Nat → Out AddrType
  | 0 => .ok .pubkey
  | 1 => .ok .script
  | 2 => .ok .redeem
  | _ => .throw .invalidArgument

/-- `cbor_decode` (src/address.cpp:416-423). -/
def cborDecode (bs : Bytes) : Out Item :=
  match parse bs with
  | some i => .ok i
  | none => .throw .invalidArgument

/-- `std::copy` into the 28-byte member (initially zero) (src/address.cpp:541-542). -/
def copyRoot (r : Bytes) : Out Bytes :=
  if r.length ≤ 28 then .ok (r ++ List.replicate (28 - r.length) 0) else .ub

/-- Attribute 1: the encrypted derivation path, a CBOR byte string inside a byte string
(src/address.cpp:544-550). -/
def decodeCiphertext (attrs : List Item) : Out Bytes :=
  match lookup 1 attrs with
  | none => .ok []
  | some v => do
    let b ← deref (asBstr v)
    let decoded ← cborDecode b
    deref (asBstr decoded)

/-- Attribute 2: the network magic, a CBOR integer inside a byte string, cut to 32 bits
(src/address.cpp:551-557). -/
def decodeMagic (attrs : List Item) : Out Nat :=
  match lookup 2 attrs with
  | none => .ok 0
  | some v => do
    let b ← deref (asBstr v)
    let decoded ← cborDecode b
    let n ← deref (asUint decoded)
    return n % 2 ^ 32

/-- Body of the `try` block of `ByronAddress::fromCBOR` (src/address.cpp:524-562). -/
def fromCBORBody (addrCbor : Bytes) : Out Addr := do
  let item ← cborDecode addrCbor
  let arr ← deref (asArray item)
  let payloadBytes ← (do let i ← get arr 0; deref (asBstr i))
  let payloadCrc ← (do let i ← get arr 1; deref (asUint i))
  if crc32 payloadBytes ≠ payloadCrc % 2 ^ 32 then .throw .invalidArgument else
  let payload ← cborDecode payloadBytes
  let parr ← deref (asArray payload)
  let rootItem ← get parr 0
  let attrItem ← get parr 1
  let typeItem ← get parr 2
  let rootBytes ← deref (asBstr rootItem)
  let root ← copyRoot rootBytes
  let attrs ← deref (asMap attrItem)
  let ciphertext ← decodeCiphertext attrs
  let magic ← decodeMagic attrs
  let t ← deref (asUint typeItem)
  let type ← uintToType t
  return ⟨root, ciphertext, magic, type⟩

/-- `ByronAddress::fromCBOR` (src/address.cpp:520-571): every exception is replaced by
`invalid_argument`. -/
def fromCBOR (addrCbor : Bytes) : Out Addr :=
  match fromCBORBody addrCbor with
  | .throw _ => .throw .invalidArgument
  | r => r

/-- `ByronAddress::fromBase58` (src/address.cpp:573-578). -/
def fromBase58 (s : Bytes) : Out Addr := do
  let b ← Base58.decode s
  fromCBOR b

/-- The attribute map (src/address.cpp:591-604). -/
def attrMap (a : Addr) : List Item :=
  (if a.ciphertext.length > 0 then [.uint 1, .bstr (enc (.bstr a.ciphertext))] else []) ++
  (if a.magic ≠ 0 then [.uint 2, .bstr (enc (.uint a.magic))] else [])

/-- The payload (src/address.cpp:582-611). -/
def payloadOf (a : Addr) : Bytes :=
  enc (.array [.bstr a.root, .map (attrMap a), .uint (typeToUint a.type)])

/-- Tagged payload and checksum (src/address.cpp:613-617). -/
def wrap (payload : Bytes) (crc : Nat) : Bytes :=
  enc (.array [.tag 24 (.bstr payload), .uint crc])

/-- `ByronAddress::toCBOR` (src/address.cpp:580-618). -/
def toCBOR (a : Addr) : Bytes := wrap (payloadOf a) (crc32 (payloadOf a))

/-- `ByronAddress::toBase58` (src/address.cpp:620-623). -/
def toBase58 (a : Addr) : Out Bytes := Base58.encode (toCBOR a)

/-- The plaintext of the encrypted derivation path in `Attributes::fromKey`
(src/address.cpp:494-501): the encoding of the array of indices with its first byte
replaced by 0x9F (indefinite array) and 0xFF appended. -/
def pathPlaintext (path : List Nat) : Bytes :=
  0x9F :: (enc (.array (path.map .uint))).drop 1 ++ [0xFF]

end Cardano.Byron
