# Formal model of ViperScience/libcardano in Lean 4 — design

The C++ source in `/repo` is read as text; nothing is built or run.  The model
is a set of small, total, computable Lean functions, one per C++ function (or
loop), each with a comment citing the file and lines it models.  Property
theorems live in `lean/Verif/Props/*.lean`; the model in
`lean/Verif/Model/*.lean`; helper lemmas in `lean/Verif/Lemmas/*.lean`.

## Conventions

* C++ `uint8_t`, and `char` in `std::string`/`string_view`, are `UInt8`; byte
  vectors, spans, arrays and strings are `List UInt8`.
* Every function that can fail returns `Out α`, with three distinct outcomes:
  `ok a`, `throw e` (a C++ exception) and `ub` (undefined behaviour: out-of-bounds
  access, null dereference, division by zero, ...).
* Loops become structural recursion or folds; loops without an evident bound get
  fuel, and a theorem that the fuel suffices, or a termination proof.
* Calls into libraries whose source is not in the repo (libsodium, Botan, the
  forked VRF library, nlohmann/json, cppbor) are parameters (structures of
  functions) or — for cppbor, CRC-32 and modular scalar arithmetic — explicit models.
  The assumptions made about the parameters are fields/hypotheses visible in the
  theorem statements and each has an instance showing they are satisfiable.

## Trusted base

* Lean 4.33.0's kernel; the axioms `propext`, `Classical.choice`, `Quot.sound`
  only (no own axioms, no `native_decide`, no `bv_decide`).
* The reading of the C++ source into the model (nothing is extracted).
* Behaviour of the external libraries as stated in each section below.
* C++ semantics: `int` at least 32 bits, `size_t` 64 bits, `char` 8 bits, "C" locale.

Sections per area ("what is modelled / what is not") are kept at the end of
this file and are extended as the model grows.

## Plan per property

| id | model | proof |
|----|-------|-------|
| C01, C02 | `bytes2hex`, `hex2bytes` over bytes | induction on the list; finite per-byte facts by kernel evaluation over all 256 values |
| C03, C04 | `polymod`, `expand_hrp`, checksum, `convertbits`, `BECH32::encode/decode` | convertbits = regrouping of the bit string; polymod linear over xor |
| C05 | same | polymod step is xor-linear and injective on 30-bit states; window of ≤6 symbols maps injectively |
| C06 | table look-up beyond 127 is `ub` | negation by witness; partial: strings whose lower-cased data part is ASCII |
| C07–C09 | digit-array loops of `BASE58::encode/decode` with explicit buffer size | loop invariant: digits represent the number; bound 256^100 < 58^138; negations by witness for empty/all-zero/invalid characters |
| C10–C12 | three address classes, header byte, length and type checks, Bech32 text | from C03/C04; negation of C12 by witness, partial with agreeing prefix |
| C13 | `ChainPointer::toBytes` | a decoder and a round-trip proof |
| C14 | Byron `toCBOR`/`fromCBOR` over the CBOR model, null dereference = `ub` | round-trip for pubkey/script; negation for redeem |
| C15 | bitwise reflected CRC-32 (Botan's "CRC32") | linear, step injective: any burst within 32 bits changes the CRC; up to four flipped bits of payload and checksum (108 bytes; kernel check over the columns), two at any size (period of the shift, `Lemmas/CrcOrder`) |
| C16 | `BytePacker` | positional notation |
| C17 | `rationalApprox` on every double (NaN, infinities, m/2^e), int64 wrap-around of the counter | loop invariants of continued-fraction convergents; closed form of the doubling loop |
| C18 | file-system state machine with crash points | negation by witness; partial: file is always old, or a prefix of the new text |
| C19–C21 | bit packing loops of `generate`/`toEntropy`, `verify_checksum`, dictionary look-up | accumulator invariant; SHA-256 a parameter |
| C22–C28 | KES buffers as byte lists, recursive keygen/update/sign/verify, hash & Ed25519 as parameters | exact characterisation of the buffer at every period by induction on the depth |
| C29–C34 | byte arithmetic of key derivation, clamping; curve as abstract group with injective encoding | carries as positional arithmetic; group homomorphism |
| C35–C42 | scalars modulo L as `ZMod L`, dealer, signers, aggregation | Lagrange interpolation (Mathlib); negations by witness |
| C43–C47 | CBOR item trees with encoder/decoder; each serializer/deserializer pair | structural induction; negations by witness |
| C48–C55 | transaction builder as state machine | invariants over operation histories; loops with fuel |
| C56–C58 | `src/stake_pool.cpp`: keys, operational certificates, issue counter, registration manager as state machines (`Model/StakePool`); formats in `Spec/StakePool` | group algebra via C71; induction over call histories; negations by witness |
| C59 | `src/vrf.cpp` on top of libsodium's ECVRF-ED25519-SHA512-ELL2 (`Spec/Sodium`: cofactor clearing, Elligator as an abstract map into the curve) | group algebra in ℤ/ℓ and cofactor 8 |
| C60, C73 | all `to_json`/`from_json` functions of the four genesis eras on JSON trees; number conversions of `nlohmann::json` (`Model/Genesis`); file formats as schemas (`Spec/Genesis`) | one law per structure (round trip, totality on documents of the format, soundness on all accepted documents), combined field by field; the repetitive definitions and proofs were generated by a script from the field tables, which were checked against the C++ text |
| C74 | `ExtendedColdSigningKey::fromRootKey`, `fromMnemonic` (`Model/StakePool`), `deriveChild` (`Model/Bip32`); `Spec/Bip32` `Descendant` | induction over the path: the scalar stays a multiple of 8 between 2^254 and 2^255, where no multiple of the group order is one; each step is the paper's child |
| C75 | the four certificate `saveToFile` functions; retirement manager | content computed from the envelope theorem (C18), the CBOR byte forms (C56) and decimal numerals |
| C76 | the whole Babbage builder (`Model/BabbageBuilder`), every public mutating call as an `Op`, histories with caught exceptions | invariant over histories: each witness is some key's signature of the current id; calls that change the body empty the list; reverse induction for the exact signers |
| C77 | `calculateFee` with its loop (round bound), 64-bit wrap-around | size = constant + size of the fee; monotone iteration reaches a fixed point within 12 rounds; counterexamples for overflow and starting fee |
| C78 | all mutators, `serialize`, `getID` | fold over the calls (`Spec/BabbageHistory` reads the request off the list of calls); CDDL conformance and injectivity from C64/C66 |
| C79 | `fromRootKey`, `Attributes::fromKey` (`Model/ByronKey`), V1 derivation; byte formats in `Spec/Byron` written from RFC 8949 | byte-for-byte equality with the format; AEAD law gives recoverability; unique decodability of the path gives injectivity |
| C80 | IEEE 754 binary64 rounding on rationals (`Model/Ada`); its rounding is proved to be nearest-representable | monotonicity of rounding and exactness on short significands bound the error; counterexample evaluated exactly |
| C81 | memory with locked pages and the five operations on `SecureByteArray` (`Model/SecMem`) | induction over histories; exact characterisation of locked pages; counterexample histories |
| C82 | `UTxO::fromJSON` on JSON trees (`Model/UtxoJson`) | case analysis on the document, hex theorems C01/C02 |
| C83 | `polymod` and `decode` as for C03–C06, C61 | GF(32)-linearity (agreement on the 30 basis bits), projection of the parity-check columns, kernel evaluation that the projected columns are pairwise non-proportional |
| C84 | every `deserialize` as a sequence of assignments on the object (`Model/LedgerInto`), so that what is left after an exception is visible | proved to agree with the value-level readers of C42–C47 on results; per type, exact object after each failure point; counterexamples for the types where it is false |
| C85 | both builder models (a call is the builder it leaves and its outcome) | case analysis per call; for `balance` induction over the rounds: reason of each exception and the builder left; for too small funds induction over the outputs, all of which are removed |
| C86 | extended keys as byte strings (Model/Bip32) | splitting and concatenating lists |
| C87 | all decoding models; Spec/Errors gives the table of exceptions (for scripts an inductive relation over the nesting) | case analysis per type; scripts: the relation determines the outcome (induction on it) and every array has an outcome (induction on its size); elsewhere a compositional calculus of the exceptions a call can throw |
| C88 | the dealer of Model/Tss with explicit random numbers | holds for n-1 shares without the last (same random numbers deal the same shares for every other key, with exactly one key excluded); refuted when a lower share is missing: generated shares are clamped keys, so at most 2^250 of about 2^252 secrets remain (and with m missing at most m(2^250-1)+1) |
| C89 | the ten word lists of bip39_dictionary.hpp (all 20480 words) and the constructor | disjointness of 43 pairs of lists by search trees evaluated by the kernel (a tree that finds every word of one list and no word of the other); equal positions in the Chinese lists; refuted for English/French: the 100 common words all have different numbers, so a text accepted in both always has two entropies |
| C90 | the fromKey(s) functions of src/address.cpp and derivation along paths | composition of C10, C62 (text), C74 (private paths) and C29 (one step of public derivation); induction over the soft path keeps the key in the range where both derivations agree; failure of public derivation reduced to an HMAC output with 28 leading zero bytes |
| C91 | all of the Shelley builder, with the UTXO/UTXOW rules transcribed separately (Spec/LedgerRules) and the wallet's obligations listed in Spec/Wallet | from the history (C51), balance (C52, C53, C67, C68) and signatures (C33, C71): each rule is derived; induction over the list of signing keys. Not part of the rules: DELEGS (pool and account state; see C97), metadata, scripts, Byron addresses. Exact: accepted iff `CountedRight`, which fails for stake deregistrations (`C91_deregistration_rejected`) and repeated inputs or withdrawals unless they cancel |
| C92 | KES keys (C23-C26) and operational certificates (C56, C57) used together by an operator (Spec/Operator), with the OCERT rule and the verification of sum-composition signatures transcribed separately (Spec/BlockRules) | induction over the history with the invariant "the key's age is the current period minus the certificate's period, and the counter is at most one above the last one seen"; the library's verification is proved equivalent to the specification's; the extra condition since Babbage is shown necessary |
| C93 | all of the Babbage builder, with the Babbage UTXO/UTXOW rules for script-free transactions transcribed separately (Spec/BabbageRules) | from C76-C78 and C77 (fee): the transaction that is sent is no larger than the one the fee was computed for, because the width of an amount is monotone; value from permutations of the input set. Byte sizes count without the validity flag, as in the ledger |
| C94 | composition of C21, C30, C74, C90, C32 (paths of CIP-1852 in Spec/Wallet) | direct composition; the checksum variants by splitting the 11 bits of the last word |
| C95 | Model/PoolKeysProgram: the example program over a directory with per-file devices | composition of C72, C75, C56, C59, C22, C74; order of effects by case analysis over the eight files; any devices: induction over the list of files |
| C96 | composition of C38 and C91 (rules of Spec/LedgerRules, `PreparedFor` with an arbitrary set of own key hashes) | C91 for witnesses made in any way; the group that is one short by the exact criterion `C38_verifies_iff` and the polynomial with zeros at the ids |
| C97 | as C91, with the effect of the UTXO rule and DELEGS/DELPL/DELEG/POOL for stake keys and pools transcribed separately (Spec/LedgerEffect) | C91 gives acceptance; the effect on outputs by the exact content of the body (C51, C91), the effect on keys and pools by induction over the history. Not in the rules: epoch change, stake scripts, genesis delegations, instantaneous rewards. Hypothesis: the id is not yet in use (collision-freedom of the hash for this one id) |
| C98 | key objects of C22–C26 with `drop()` and call sequences (Spec/KesLife) | induction over the calls with the exact buffer of each period (Lemmas/Kes); after `drop()` the invariant "the two public keys at the top are zero", which no call breaks, so a signature can only verify through a hash collision. Depth 0 has no `publicKey()`, `signCompact` on it is undefined (C26) |
| C99 | a relation "this item means this value" for every production of the CDDL (Spec/LedgerMeaning), independent of the readers and writers | grammar: existence and uniqueness of the meaning by structural induction; reading and writing: each reader/writer against the relation, composed; faithful exactly when nothing is dropped |
| C100 | the CDDL relation for Babbage transactions (Spec/BabbageMeaning) | every writer against the relation, uniqueness as in C99; histories by the facts of C76 and C78 |
| C101 | a node that sees only bytes: CBOR as a relation (Spec/Rfc8949), the CDDL relation and the ledger rules (Spec/Wire) | an invariant of all builder histories says that the object can be held and is plain; C99 and unique decodability give the object back from the bytes; the rules do not look at what is not written |
| C102 | passing bytes from wallet to wallet: load, sign, serialize (Spec/Cosign) | induction over the wallets with the exact round trip of C43; refuted for pool registrations and for bodies in another encoding (C102_pool_rejected, C102_reencoded_rejected), so partial |
| C103 | a node that sees only the bytes of a Babbage transaction (Spec/BabbageWire) | as C101, with C100 for the meaning; the byte strings of the outputs are unique because encodings are prefix-free |
| C104 | text addresses (Spec/PayText), builder, bytes and the unspent outputs after them | composes C11, C61, C90 (text and address), C99/C100 (meaning of the bytes), C101/C103 (acceptance) and C97 (effect); positions by induction over the history |
| C105 | the example program as a list of writes with a kill at any moment (Model/PoolKeysCrash), proved equal to the program of C95 when run to its end | exact set of directories by induction over the list of writes; corollaries on the order of files, reruns and mixtures |
| C106 | the grammar of RFC 8259 (Spec/Json) and the document of writeEnvelopeTextFile (Model/Util) | a parse of the document is followed member by member; the closing quotation mark of a string that comes back unchanged is found by a length argument |
| C107 | the parser behind `file >> j` on bytes (Model/JsonText), the RFC 8259 grammar as relations (Spec/Json) and the meaning of a value (Spec/JsonTree) | the parser is sound (induction on fuel) and complete (induction on the grammar derivation, fuel 2·length+1 suffices) for the grammar; unambiguity and the refusal of proper beginnings follow; objects as sorted maps with unique extension; composed with C73 |
| C108 | dictionary order of byte strings and the lists a body contains (Spec/SetOrder), on the decoded CBOR of the bytes | the model's comparison (`bytesLt`, also used by the `StrictSorted` of Spec/Ledger) is proved equal to the dictionary order (`bytesLt_iff`); sorted insertion (std::set, std::map) keeps lists sorted; strictly sorted lists are unique |
| C109 | deterministic encoding (Spec/Deterministic: shortest heads, definite lengths, sorted keys) as a relation of items and bytes | the serializers produce the encodings of tidy items: heads of encCBOR are shortest, and map keys (small numbers, or addresses in a sorted std::map) are in order |
| C110 | the relation of C109 on the two layers of a Byron address | both layers are tidy items; with the round trip (C14) equal bytes give equal addresses |
| C111 | shapes of the two CBOR layers (Spec/ByronFaults), independent of the reader | every step of the reader is exact (value iff good, undefined iff fatal); false as stated, the fatal inputs are characterised |
| C112 | canonical bytes as the deterministic encoding of both layers | uniqueness of deterministic encodings (C109) and the round trip (C14); false as stated, trailing bytes are ignored |
| C61 | GF(32) polynomial checksum spec and a bit-stream regrouping spec (Spec/Bip173) | decode/encode proved equal to the standard's relation, up to the two listed deviations |
| C62 | CIP-19 byte layout, stated in Props/Cip19 | unfold and compare |
| C63 | tree of leaf keys as a spec (Spec/Kes) | induction on depth; hash collisions exhibited explicitly |
| C64 | CDDL grammar as inductive predicates on CBOR items (Spec/Ledger) | structural; exact iff for each type |
| C65 | UB as an explicit outcome of the model (Outcome.ub) | bind-closure of definedness; witnesses for failures; exact sets of readable and of undefined inputs for each compound type (Spec/LedgerFaults) |
| C66 | injectivity of the serializer | via unique decodability (C47) |
| C67 | the balancing loop | at most three rounds, by monotonicity of sizes |
| C68, C69 | the balancing loop | loop invariants |
| C70 | the CBOR parser and every Shelley `deserialize` | invariant of the parser (`Sized`) carried through every deserializer; then the exact round-trip theorems of C43-C46 |
| C72 | `saveToFile` of the pool keys (on top of the file model of C18) and `SumKesPrivateKey(bytes)` | envelope injectivity via C01/C47; effect of `update` of a reloaded key in every period by induction on depth (Props/KesFile) |
| C71 | `src/ed25519.cpp` on top of libsodium's `crypto_sign` (`Spec/Sodium`) | group algebra; equality with `verifyDetached` decided by the nonce |

## Where the theorems are

| module | properties | subject |
|----|----|----|
| Props/Ada | C80 | C80: conversions between ADA and lovelace |
| Props/AdaExact | C80 | C80: exactly which amounts do not survive the round trip through ADA |
| Props/Address | C10, C11, C12, C13 | C10–C13: Shelley addresses and chain pointers |
| Props/BabbageBuilder | C76, C77, C78 | C76 and C78: histories of Babbage builder calls |
| Props/BabbageFee | C77 | C77: fees of the Babbage builder |
| Props/BabbageOrder | C78 | The order of Babbage builder calls |
| Props/BabbageSent | C100 | What the bytes of a Babbage builder mean (C100) |
| Props/BabbageWallet | C93 | C93: a balanced Babbage transaction is accepted |
| Props/BabbageWire | C103 | What the network does with the bytes of a Babbage transaction (C103) |
| Props/BabbageWritten | C100 | What a serialized Babbage transaction means (C100) |
| Props/Base58 | C07, C08, C09 | C07–C09: Base58 text |
| Props/Bech32 | C03, C04, C05, C06 | C03–C06: Bech32 text |
| Props/TextHex | C03, C07 | The hexadecimal variants of the text codecs |
| Props/Bech32Errors | C83 | Substitution errors in Bech32 strings (C83) |
| Props/Bip173 | C61 | C61: the Bech32 functions implement BIP-173 |
| Props/Bip32 | C29, C30, C31, C32, C33, C34, C86 | C29–C34: BIP32-Ed25519 keys |
| Props/Byron | C14, C15 | C14, C15: Byron addresses |
| Props/ByronCrc | C15 |  |
| Props/ByronFlips | C15 | C15: flipped bits in a Byron address |
| Props/ByronKey | C14, C79 | Byron addresses: wire format and derivation from keys (C14, C79) |
| Props/Cbor | C47 | C47: CBOR items are uniquely decodable |
| Props/CborRfc | C47 | C47: the encoder and the parser against RFC 8949 |
| Props/CertFiles | C22, C75 | C75: files of stake pool certificates; C22 for the stake pool's KES classes |
| Props/Cip19 | C62 | C62: Shelley address format (CIP-19) |
| Props/ColdKey | C74 | C74: keys derived from an Icarus root, and stake pool cold keys (CIP-1853) |
| Props/Cosign | C102 | Several wallets sign one transaction (C102) |
| Props/Ed25519 | C71 | Properties of `ed25519.cpp` and `vrf.cpp` (C59, C71) |
| Props/Edwards25519 | C22, C59, C71 | Signatures, VRF and KES on the real curve (C22, C59, C71) |
| Props/EnvelopeJson | C106 | C106: the files are JSON documents |
| Props/Errors | C87 | C87: the exceptions of everything that is not the ledger |
| Props/Genesis | C60, C73 | Genesis configurations (C60, C73) |
| Props/GenesisFaults | C73 | C73: exactly which genesis files are read, refused, or undefined behaviour |
| Props/Deterministic | C109 | The bytes of built transactions are deterministic CBOR (C109) |
| Props/ByronFaults | C111 | Which bytes are read as a Byron address, refused, or leave defined behaviour (C111) |
| Props/ByronCanonical | C112 | Which bytes of a Byron address are the ones the library writes (C112) |
| Props/ByronMalformed | C15 | Bytes that are not CBOR are refused as Byron addresses |
| Props/ByronDeterministic | C110 | Byron addresses are written as deterministic CBOR (C110) |
| Props/SetOrder | C108 | The order of sets and maps in the bytes (C108) |
| Props/GenesisText | C107 | Genesis files as texts (C107) |
| Props/Hex | C01, C02 | C01, C02: hexadecimal text |
| Props/Kes | C22, C23, C24, C25, C26, C27, C28 | C22–C28: key-evolving signatures |
| Props/KesEd25519 | C22 | KES keys over libsodium's Ed25519 |
| Props/KesFile | C72 | C72, KES signing keys rebuilt from their files: what further updates do |
| Props/KesLife | C98 | C98: the whole life of a KES key object, `drop()` included |
| Props/KesPeriod | C28 | C28, exactly: for which periods a KES signature is accepted |
| Props/KesSound | C63 | C63: what an accepted KES signature proves |
| Props/KeyFiles | C72 | Key files of stake pool keys (C72) |
| Props/Ledger | C44, C45, C46 | C43–C46: CBOR round trips of the Shelley ledger types |
| Props/LedgerCddl | C64 | C64: serialized transactions follow the ledger's CDDL |
| Props/LedgerEffect | C97 | C97: what was asked for happens on the ledger |
| Props/LedgerErrors | C87 | C87: the exceptions of the ledger deserializers |
| Props/LedgerFaults | C65 | C65, exactly: which byte strings are read, refused, or leave defined behaviour |
| Props/LedgerGrammar | C99 | The transactions of the grammar are those that mean something, and they mean one thing (C99) |
| Props/LedgerInto | C84 | C84: reading bytes into an object that is already in use |
| Props/LedgerMeaning | C99 | Reading and writing transactions, against the meaning of their bytes (C99) |
| Props/LedgerSafe | C43, C64, C65, C66 | C65: deserializing arbitrary bytes; C66: bytes bind the content |
| Props/LedgerStable | C70 | C70: whatever the library decodes is well formed and survives re-serialization |
| Props/LedgerTx | C43, C44 | C43, C44: CBOR round trips of certificates and transactions |
| Props/LedgerWritten | C99 | What a serialized transaction means (C99) |
| Props/Mnemonic | C19, C20, C21 | C19–C21: mnemonic phrases |
| Props/MnemonicLang | C89 | C89: one phrase read in two languages |
| Props/OpCert | C56, C57 | Operational certificates and the issue counter (C56, C57) |
| Props/Operator | C92 | C92: the blocks of a careful operator are accepted |
| Props/PayText | C104 | C104: money sent to the text of an address arrives at its owner |
| Props/PoolKeysCrash | C105 | C105: the example program killed at any moment |
| Props/PoolKeysDisk | C18, C95 | C18, C95: devices that run out of space |
| Props/PoolKeysJson | C105 | C105 with C106: what a reader finds after the example program was killed |
| Props/PoolKeysProgram | C95 | C95: the files made by the example program `generate_stake_pool_keys` |
| Props/PoolReg | C58 | Pool registration certificates (C58) |
| Props/Rational | C17 | `rationalApprox` on all doubles (C17) |
| Props/Real | (lemmas) | The library with its actual primitives |
| Props/Restore | C94 | C94: a wallet is restored from its seed phrase |
| Props/SecMem | C81 | C81: secrets in memory |
| Props/Tss | C37, C40 | C37, C40: dealer parameters and direct sharing |
| Props/TssChain | C35, C37 | C37: the chain code of a directly shared key |
| Props/TssDealer | C35, C37, C40 | C35, C37, C40 at the level of the `Dealer` object |
| Props/TssDirectSecrecy | C88 | C88: what an incomplete set of direct (n-of-n) shares reveals |
| Props/TssExact | C36 | C36, exactly: what fewer than `t` Shamir shares say about the key |
| Props/TssShamir | C35, C36, C39, C40 | C35, C36, C39, C40: Shamir sharing |
| Props/TssSign | C37, C38, C41, C42 | C38, C41, C42: threshold signing |
| Props/TssWallet | C38, C96 | C38: a group that is one short, and C96: a wallet shared by a group |
| Props/TxBalance | C52, C55, C68, C69 | C52 and C55: balancing |
| Props/TxBuilder | C49, C50 | C48–C51: histories of builder calls |
| Props/TxFailed | C85 | C85: a failed builder call |
| Props/TxFee | C53, C54 | C53, C54: transaction fees |
| Props/TxForce | C67 | C67: forced balancing succeeds when the funds suffice |
| Props/TxMade | (lemmas) | What a builder holds can be written (C101) |
| Props/TxStale | C49 | C49, exactly: where every key witness comes from, and when it is out of date |
| Props/TxTotals | C48, C51 | C48 and C51: order of calls, totals |
| Props/Util | C16, C17, C18 | C16–C18: integer packing, rational approximation, key files |
| Props/UtxoFaults | C82 | C82: exactly which documents are undefined behaviour |
| Props/UtxoJson | C82 | C82: unspent outputs read from Ogmios JSON |
| Props/Vrf | C59 | Properties of `vrf.cpp` (C59) |
| Props/VrfReal | C59 | The VRF with SHA-512, edwards25519 and Elligator2 (C59) |
| Props/Wallet | C91 | C90 and C91: from keys to accepted transactions |
| Props/WalletKeys | C90 | C90: addresses made from keys, and watch-only wallets |
| Props/Wire | C101 | What the network does with the bytes of a transaction (C101) |

Specifications (`Spec/*`): standards (`Bech32`, `Bip173`, `Bip32`, `Hex`, `Crc32`, `Rfc8949`, `Json`, `JsonTree`, `Sha2`, `Sha3`,
`Blake2b`, `ChaCha`, `Ed25519`, `Edwards25519`, `Elligator`, `Sodium`, `Mnemonic`), formats and meanings (`Ledger`, `LedgerMeaning`,
`BabbageMeaning`, `Genesis`, `GenesisFaults`, `StakePool`, `Operator`, `Byron`, `Kes*`, `Errors`, `ReadInto`), ledger rules (`LedgerRules`, `BabbageRules`,
`BlockRules`, `LedgerEffect`, `LedgerFaults`, `Wire`, `BabbageWire`, `PayText`, `SetOrder`, `Deterministic`, `ByronFaults`), what a history of calls asks for (`TxHistory`, `BabbageHistory`, `TxBuilder`,
`Wallet`, `Cosign`, `KesLife`, `Tss`, `Crypto`, `Util`).  Each theorem file imports the specifications it is stated with.

## What is modelled, what is not

Every source file of the library was read; the list below follows the areas.  "Parameter" means
that the theorems hold for every function with the stated laws.

**External libraries.**
* libsodium (`Spec/Ed25519`, `Spec/Sodium`): scalar arithmetic modulo ℓ is modelled exactly, the
  curve is a parameter (`Curve`: a commutative group, a base point of order exactly ℓ, a 32-byte
  point encoding, a decoder inverting it, canonicity and small-order tests).
  `crypto_sign_*`, `crypto_scalarmult_*`, `crypto_core_*` and the ECVRF are written from RFC 8032,
  the VRF draft and libsodium's source on top of that; Elligator is an abstract map into the
  curve (`Spec/Elligator` gives the real one, proved to land on the curve).  SHA-512 is a parameter with a length law.  `sodium_init` is assumed to succeed.
  The interface is met by the real curve: `Spec/Edwards25519` builds it from `-x²+y² = 1+dx²y²`
  over ℤ/(2^255-19) (group law proved, primality and the orders evaluated by the kernel, exactly
  8ℓ points) with RFC 8032's encoding and libsodium's decoder and small-order list;
  `Props/Edwards25519` states C71, C59 and C22 on it with no curve parameter left.
* Botan: hashes, HMAC, PBKDF2, ChaCha20, ChaCha20Poly1305 are parameters (`Bip32.Prims`, `Byron.Crypto`,
  `SigHash`) with length laws; the AEAD opens what it sealed.  Botan throws on HMAC keys and PBKDF2 passphrases
  of more than 4096 bytes; the model's functions are total.  CRC-32 is modelled exactly.  No
  collision resistance is assumed: binding statements exhibit the collision instead.
* `SigHash` (`Spec/Crypto`), used by KES, certificates and the builders: an honest signature
  verifies unless the derived nonce is zero modulo ℓ.  `Ed25519.sigHash` proves that libsodium's
  Ed25519 meets it for every curve and hash; the exceptional nonce is real (C71_zero_nonce_rejected).
* cppbor (`Model/Cbor`): item trees, canonical encoder, parser, accessors (null on the wrong
  type, looking through tags), `value()` of negative integers.  Indefinite lengths, floats and
  negative integers below −2^63 are errors, as in cppbor.  `Uint::value()` (used for MIR amounts,
  ports and type ids) aborts through cppbor's CHECK on numbers of 2^63 and more; the model returns
  the plain value there.  Not modelled: booleans and null written in two bytes (F8 14, which cppbor takes), map
  headers announcing 2^63 entries or more (cppbor's count wraps), allocation failure on huge announced lengths.
* nlohmann::json: trees (`Model/Genesis`), and its text parser for genesis files (`Model/JsonText`, C107); `strtod` is a
  parameter.  The printer is not modelled: the library never calls it (C106 is about text it writes itself).
* Randomness (`Scalar::random`, `GenerateEntropy`, `makeRandomByteArray`, `PrivateKey::generate`) is an
  argument; theorems hold for every value drawn.

**Encodings, util, addresses** (`Hex`, `Base58`, `Bech32`, `Util`, `Rational`, `Ada`, `Address`,
`Byron`, `ByronKey`): every function of `src/encodings.cpp`, `src/util.cpp`, `src/address.cpp`.
`double` arithmetic in `rationalApprox` is on exact dyadics; in `love2ada`/`ada2love` it is IEEE
rounding without overflow to infinity (merged with the undefined range).  The "C" locale is assumed
for character classification.  The file system model of `writeEnvelopeTextFile` has a crash point
between any two bytes written and a device-full error; the directory entry is not modelled.

**Mnemonic, BIP32, Ed25519, VRF, KES** : every function of `src/mnemonic.cpp`,
`src/bip32_ed25519.cpp`, `src/ed25519.cpp`, `src/vrf.cpp`, `include/cardano/kes.hpp`, `src/kes.cpp`.
The ten word lists of `bip39_dictionary.hpp` are transcribed and checked by the kernel to be 2048
different words without spaces (`Lemmas/Bip39*`).  Template depth is any natural number.  Constant-time behaviour is not
modelled.

**Threshold signatures** (`Tss`): every function of `src/tss.cpp` and `src/curve25519.cpp`; `Dealer::generate` and the
argumentless `commitmentShareAndNonce()` only draw random numbers and call the functions modelled.

**Ledger** (`Ledger`, `LedgerBabbage`, `LedgerInto`): every serializer and deserializer in `src/ledger.cpp`,
`src/shelley/ledger.cpp`, `src/babbage/ledger.cpp`, `serialization.hpp`.  Types of the ledger header that have no
code (block headers, protocol parameter updates, Allegra/Mary bodies) have nothing to model.
`LedgerInto` models them once more as member functions: which assignments have been made when one throws.

**Transaction builders** (`TxBuilder`, `BabbageBuilder`): every public call.  Random dummy witnesses
used for size estimation are zeros in the model, justified by the theorem that the size does
not depend on them.  `addMint`, `fromCBOR` (Babbage) and `emptyWithParams` are declared but
defined nowhere.

**Stake pool, genesis** (`StakePool`, `Genesis`): every function of `src/stake_pool.cpp` and
`src/*/genesis.cpp`.

**Not modelled**: address-space exhaustion and allocation failure, threads (the library starts none; objects are
not shared), the debug printers of `src/debug_utils.cpp`.

### Concrete primitives and test vectors

The theorems about keys, addresses, transactions and pools hold for every curve of the right shape and every hash
function of the right output size.  `Verif/Spec/Sha2.lean`, `Blake2b.lean`, `Sha3.lean` and `ChaCha.lean` write down SHA-256,
SHA-512, HMAC, PBKDF2, BLAKE2b, SHA3-256, ChaCha20 and ChaCha20-Poly1305 from their standards, `Props/Real.lean`
instantiates the model's parameters with them and with edwards25519, and `Lemmas/EdFast.lean` proves a version of the
curve which the kernel can run equal to it.  `Verif/Vectors/*.lean` run the model on the inputs of the library's own tests
(/repo/test: Ed25519, BIP32-Ed25519, mnemonics, encodings, Shelley and Byron addresses, Shelley and Babbage transactions,
pool keys, certificates and key files, KES keys and signatures of the Haskell node, the draft-03 VRF vectors and blocks of the
VIPER pool, the mainnet genesis files, threshold signatures) and check, in the kernel, that it gives the
outputs the tests expect.  These are tests, not proofs: they bear on whether the model was read off the code
correctly, which no theorem can.  PBKDF2 results (500 to 15000 iterations) are tabulated there, because they take
too long in the kernel; a two-iteration PBKDF2 vector is run.
