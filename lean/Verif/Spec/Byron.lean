import Verif.Model.Basic
import Verif.Spec.Crc32

/-! # Byron-era addresses, byte for byte

Written from RFC 8949 and from the address format published with the Byron ledger
(`cardano-wallet/concepts/byron-address-format`, quoted in src/address.cpp:306-360); nothing
here refers to the model of the code. -/

namespace Cardano.Spec.Byron

open Cardano

/-- Byte number `i` (from the least significant) of `n`. -/
def byteOf (n i : Nat) : UInt8 := UInt8.ofNat (n / 256 ^ i)

/-- Initial bytes of a CBOR item of major type `m` with argument `n`, shortest form. -/
def head (m n : Nat) : Bytes :=
  if n < 24 then [UInt8.ofNat (m * 32 + n)]
  else if n < 2 ^ 8 then [UInt8.ofNat (m * 32 + 24), byteOf n 0]
  else if n < 2 ^ 16 then [UInt8.ofNat (m * 32 + 25), byteOf n 1, byteOf n 0]
  else if n < 2 ^ 32 then [UInt8.ofNat (m * 32 + 26), byteOf n 3, byteOf n 2, byteOf n 1, byteOf n 0]
  else [UInt8.ofNat (m * 32 + 27), byteOf n 7, byteOf n 6, byteOf n 5, byteOf n 4,
    byteOf n 3, byteOf n 2, byteOf n 1, byteOf n 0]

/-- A CBOR unsigned integer. -/
def uintB (n : Nat) : Bytes := head 0 n

/-- A CBOR byte string. -/
def bytesB (b : Bytes) : Bytes := head 2 b.length ++ b

/-- The derivation path before encryption: an indefinite-length array of the indices. -/
def pathB (path : List Nat) : Bytes := [0x9F] ++ (path.map uintB).flatten ++ [0xFF]

/-- The address attributes: attribute 1 is the encrypted derivation path (a byte string inside
a byte string), attribute 2 the network magic (an integer inside a byte string), both
optional. -/
def attributesB (cipher : Option Bytes) (magic : Option Nat) : Bytes :=
  match cipher, magic with
  | none, none => [0xA0]
  | some c, none => [0xA1] ++ ([0x01] ++ bytesB (bytesB c))
  | none, some m => [0xA1] ++ ([0x02] ++ bytesB (uintB m))
  | some c, some m => [0xA2] ++ ([0x01] ++ bytesB (bytesB c)) ++ ([0x02] ++ bytesB (uintB m))

/-- What is hashed into the root of a public-key address: `[0, [0, public key ‖ chain code],
attributes]`. -/
def rootPreimage (xpub : Bytes) (attributes : Bytes) : Bytes :=
  [0x83, 0x00] ++ ([0x82, 0x00] ++ bytesB xpub) ++ attributes

/-- The payload of an address: `[root, attributes, type]`. -/
def payloadB (root attributes : Bytes) (type : Nat) : Bytes :=
  [0x83] ++ bytesB root ++ attributes ++ uintB type

/-- The address: the payload as tagged (24) encoded CBOR, and its CRC-32. -/
def addressB (payload : Bytes) : Bytes :=
  [0x82] ++ ([0xD8, 0x18] ++ bytesB payload) ++ uintB (CrcSpec.crc32 payload)

/-- The text in which the key for the derivation path is stretched, and the nonce. -/
def pathSalt : Bytes := ascii "address-hashing"
/-- see `pathSalt` -/
def pathNonce : Bytes := ascii "serokellfore"

end Cardano.Spec.Byron
