import Verif.Model.Basic
import Verif.Model.Bip39.ChineseSimplified
import Verif.Model.Bip39.ChineseTraditional
import Verif.Model.Bip39.Czech
import Verif.Model.Bip39.English
import Verif.Model.Bip39.French
import Verif.Model.Bip39.Italian
import Verif.Model.Bip39.Japanese
import Verif.Model.Bip39.Korean
import Verif.Model.Bip39.Portuguese
import Verif.Model.Bip39.Spanish

/-! # Model of `src/mnemonic.cpp` and `include/cardano/bip39_dictionary.hpp` -/

namespace Cardano.Mnemonic

/-- `enum class BIP39Language` (include/cardano/bip39_dictionary.hpp:31-43). -/
inductive Lang where
  | chineseSimplified | chineseTraditional | czech | english | french
  | italian | japanese | korean | portuguese | spanish
  deriving DecidableEq, Repr

/-- Bytes of a dictionary word from its number (the byte 1 followed by the bytes of the
word; see the generated tables).  Words of the tables are at most 33 bytes long. -/
def wordBytesAux : Nat → Nat → Bytes → Bytes
  | 0, _, acc => acc
  | fuel + 1, n, acc =>
    if n < 256 then acc else wordBytesAux fuel (n / 256) (UInt8.ofNat (n % 256) :: acc)

/-- See `wordBytesAux`. -/
def wordBytes (n : Nat) : Bytes := wordBytesAux 40 n []

/-- The ten tables (include/cardano/bip39_dictionary.hpp:82-21767). -/
def table : Lang → List Nat
  | .chineseSimplified => Bip39.chineseSimplified
  | .chineseTraditional => Bip39.chineseTraditional
  | .czech => Bip39.czech
  | .french => Bip39.french
  | .italian => Bip39.italian
  | .japanese => Bip39.japanese
  | .korean => Bip39.korean
  | .portuguese => Bip39.portuguese
  | .spanish => Bip39.spanish
  | .english => Bip39.english

/-- `BIP39Dictionary::GetDictionary` (include/cardano/bip39_dictionary.hpp:51-79). -/
def getDictionary (l : Lang) : List Bytes := (table l).map wordBytes

/-- `IsValidMnemonicSize` (src/mnemonic.cpp:43-58). -/
def isValidMnemonicSize (sz : Nat) : Bool :=
  match sz with
  | 9 | 12 | 15 | 18 | 21 | 24 => true
  | _ => false

/-- `CreateDictionaryLookup` followed by `lookup.find(w)` (src/mnemonic.cpp:60-67): the
map is filled in order, so a repeated word keeps its last index. -/
def lookupFrom (w : Bytes) : List Bytes → Nat → Option Nat
  | [], _ => none
  | d :: ds, i =>
    match lookupFrom w ds (i + 1) with
    | some j => some j
    | none => if d = w then some i else none

/-- See `lookupFrom`. -/
def lookup (d : List Bytes) (w : Bytes) : Option Nat := lookupFrom w d 0

/-- A `Mnemonic` object: `word_list_`, `word_indexes_` (include/cardano/mnemonic.hpp:40-43). -/
structure Mn where
  words : List Bytes
  indexes : List Nat
  deriving DecidableEq, Repr

/-- The two constructors from words and indexes (src/mnemonic.cpp:71-97); the indexes are
`uint16_t` and are not checked against the words. -/
def ofWordsIndexes (words : List Bytes) (indexes : List Nat) : Out Mn :=
  if words.length ≠ indexes.length then .throw .invalidArgument
  else if !isValidMnemonicSize words.length then .throw .invalidArgument
  else .ok ⟨words, indexes⟩

/-- The look-up loop shared by the three language constructors (src/mnemonic.cpp:111-127,
143-160, 184-201). -/
def findIndexes (d : List Bytes) : List Bytes → Out (List Nat)
  | [] => .ok []
  | w :: ws =>
    match lookup d w with
    | none => .throw .invalidArgument
    | some i => do
      let rest ← findIndexes d ws
      return i :: rest

/-- The two constructors from a span of words (src/mnemonic.cpp:99-128, 130-161). -/
def ofWords (l : Lang) (words : List Bytes) : Out Mn := do
  if !isValidMnemonicSize words.length then .throw .invalidArgument
  else
    let ix ← findIndexes (getDictionary l) words
    return ⟨words, ix⟩

/-- The splitting loop of the string constructor (src/mnemonic.cpp:165-175): cut at every
space character; consecutive spaces give empty words. -/
def splitSpace : Bytes → List Bytes
  | [] => [[]]
  | c :: cs =>
    if c = 32 then [] :: splitSpace cs
    else match splitSpace cs with
      | [] => [[c]]
      | w :: ws => (c :: w) :: ws

/-- The constructor from a string (src/mnemonic.cpp:163-202). -/
def ofString (l : Lang) (phrase : Bytes) : Out Mn := ofWords l (splitSpace phrase)

/-- `uint16_t` conversion. -/
def u16 (n : Nat) : Nat := n % 65536
/-- `uint8_t` conversion. -/
def u8 (n : Nat) : Nat := n % 256

/-- The inner `while (n_bits < WORD_SIZE_BITS)` loop of `Mnemonic::generate`
(src/mnemonic.cpp:260-269).  Reading past the end of the entropy vector is undefined. -/
def genInner (ent : Bytes) (nBits word idx : Nat) : Out (Nat × Nat × Nat) :=
  if nBits < 11 then
    match ent[idx]? with
    | none => .ub
    | some b =>
      let e := if 11 - nBits ≥ 8 then u16 (b.toNat <<< (11 - nBits - 8))
               else b.toNat >>> (8 - (11 - nBits))
      genInner ent (nBits + 8) (word ||| e) (idx + 1)
  else .ok (nBits, word, idx)
termination_by 11 - nBits

/-- The outer loop of `Mnemonic::generate` (src/mnemonic.cpp:253-276); returns the word
indexes. -/
def genLoop (ent : Bytes) : (n idx carry nCarry : Nat) → Out (List Nat)
  | 0, _, _, _ => .ok []
  | n + 1, idx, carry, nCarry => do
    let (nBits, word, idx) ← genInner ent nCarry (u16 (carry <<< (11 - nCarry))) idx
    let nCarry := nBits - 11
    match ent[idx - 1]? with
    | none => .ub
    | some b =>
      let carry := b.toNat &&& (255 >>> (8 - nCarry))
      let rest ← genLoop ent n idx carry nCarry
      return (word &&& 0x7FF) :: rest

/-- `d[indexes[i]]` for every index (src/mnemonic.cpp:275); `std::array::operator[]` out of
range is undefined. -/
def pickWords (d : List Bytes) : List Nat → Out (List Bytes)
  | [] => .ok []
  | i :: is =>
    match d[i]? with
    | none => .ub
    | some w => do
      let rest ← pickWords d is
      return w :: rest

/-- `Mnemonic::generate(mnemonic_size, lang)` (src/mnemonic.cpp:204-279), as a function of
the bytes `entropy` drawn from the random number generator (`mnemonic_size/3*32/8` of
them).  `sha` is SHA-256; `ceil(cs/8.0)` is computed exactly (cs ≤ 8 gives 1 byte). -/
def generate (sha : Bytes → Bytes) (l : Lang) (size : Nat) (entropy : Bytes) : Out Mn :=
  if !isValidMnemonicSize size then .throw .invalidArgument
  else do
    let cs := size / 3
    let ent := entropy ++ (sha entropy).take ((cs + 7) / 8)
    let ix ← genLoop ent size 0 0 0
    let ws ← pickWords (getDictionary l) ix
    ofWordsIndexes ws ix

/-- One turn of the loop of `Mnemonic::toEntropy` (src/mnemonic.cpp:296-332): `out` is the
part of `entropy_byte_vector` already written (`ent_idx` is its length), `size` its
allocated length.  Writing at `ent_idx ≥ size` is undefined.  Note line 309 shifts the
unmasked `widx`. -/
def toEntStep (size : Nat) (out : Bytes) (carry nCarry widx : Nat) : Out (Bytes × Nat × Nat) :=
  let wordIndex := widx &&& 0x7FF
  if out.length < size then
    let b := u8 (carry <<< (8 - nCarry)) ||| u8 (widx >>> (3 + nCarry))
    let out := out ++ [UInt8.ofNat b]
    let remain := 11 - (8 - nCarry)
    if out.length < size ∧ remain ≥ 8 then
      .ok (out ++ [UInt8.ofNat (u8 (wordIndex >>> (remain - 8)))],
        u8 (wordIndex &&& (0xFFFF >>> (16 - (remain - 8)))), remain - 8)
    else
      .ok (out, u8 (wordIndex &&& (0xFFFF >>> (16 - remain))), remain)
  else .ub

/-- The loop of `Mnemonic::toEntropy` (src/mnemonic.cpp:296-332). -/
def toEntLoop (size : Nat) : List Nat → (out : Bytes) → (carry nCarry : Nat) → Out (Bytes × Nat)
  | [], out, carry, _ => .ok (out, carry)
  | w :: ws, out, carry, nCarry => do
    let (out, carry, nCarry) ← toEntStep size out carry nCarry w
    toEntLoop size ws out carry nCarry

/-- `Mnemonic::toEntropy` (src/mnemonic.cpp:281-335): entropy bytes and checksum.  The
vector is allocated with `size` zero bytes, which remain where nothing is written. -/
def toEntropy (m : Mn) : Out (Bytes × Nat) :=
  if !isValidMnemonicSize m.indexes.length then .throw .invalidArgument
  else do
    let cs := m.indexes.length / 3
    let (out, carry) ← toEntLoop (cs * 4) m.indexes [] 0 0
    return (out ++ List.replicate (cs * 4 - out.length) 0, carry)

/-- `Mnemonic::checksum` (src/mnemonic.cpp:337-341). -/
def checksum (m : Mn) : Out Nat := do
  let (_, cs) ← toEntropy m
  return cs

/-- `Mnemonic::toSeed` (src/mnemonic.cpp:362-366). -/
def toSeed (m : Mn) : Out Bytes := do
  let (e, _) ← toEntropy m
  return e

/-- `Mnemonic::verify_checksum` (src/mnemonic.cpp:343-361); the shifts are performed in
`int` (`size_t` for the right operand). -/
def verifyChecksum (sha : Bytes → Bytes) (m : Mn) : Out Bool :=
  if !isValidMnemonicSize m.indexes.length then .throw .invalidArgument
  else do
    let cs := m.indexes.length / 3
    let (ent, old) ← toEntropy m
    let nshift := 8 - cs
    match (sha ent)[0]? with
    | none => .ub
    | some h => return ((h.toNat &&& (255 <<< nshift)) >>> nshift == old)

end Cardano.Mnemonic
