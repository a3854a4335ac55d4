{"id": "C01", "title": "Hex round trip", "statement": "BASE16::decode(BASE16::encode(b)) returns exactly b for every byte string b, and encode always yields 2·|b| lower-case hex digits.", "quantifier": "all byte strings of any length", "why_tests_cant": "the space of byte strings is infinite; tests sample a few", "anchors": ["src/encodings.cpp: bytes2hex, hex2bytes, BASE16::encode, BASE16::decode"]}
{"id": "C02", "title": "Hex decoder accepts exactly the hex strings and is canonical", "statement": "BASE16::decode(s) succeeds iff |s| is even and every character is one of 0-9a-fA-F (otherwise it throws), and whenever it succeeds BASE16::encode of the result is s with A-F lower-cased.", "quantifier": "all character strings", "why_tests_cant": "rejection must hold for every malformed string, at every position and length", "anchors": ["src/encodings.cpp: hex2bytes"]}
{"id": "C03", "title": "Bech32 round trip", "statement": "For every non-empty HRP without upper-case letters and every payload, BECH32::decode(BECH32::encode(hrp, data)) returns exactly (hrp, data); an HRP containing an upper-case letter is refused by encode.", "quantifier": "all HRPs and all payloads of any length", "why_tests_cant": "payload length and bit alignment vary without bound; the checksum must be solvable for every prefix", "anchors": ["src/encodings.cpp: BECH32::encode, BECH32::decode, convertbits, create_checksum, verify_checksum, polymod"]}
{"id": "C04", "title": "Bech32 decoding is canonical", "statement": "If BECH32::decode(s) returns (hrp, data) then BECH32::encode(hrp, data) is exactly s lower-cased: no two different (up to case) strings decode to the same value, in particular padding bits and checksums are unique.", "quantifier": "all strings accepted by the decoder", "why_tests_cant": "injectivity ranges over pairs of strings", "anchors": ["src/encodings.cpp: BECH32::decode, convertbits"]}
{"id": "C05", "title": "Bech32 detects every error confined to six consecutive data characters", "statement": "If a string decodes, then changing data-part characters (to other Bech32 characters) in any window of at most six consecutive positions, including any single substitution and any swap of neighbouring different characters, gives a string that decode rejects with an exception.", "quantifier": "all valid strings of any length, all window positions, all replacement characters", "why_tests_cant": "the number of (string, position, replacement) triples is unbounded", "anchors": ["src/encodings.cpp: polymod, verify_checksum"]}
{"id": "C06", "title": "Bech32 decoding never leaves defined behaviour", "statement": "BECH32::decode on an arbitrary caller-supplied string either returns a value or throws; it never reads outside its lookup table.", "quantifier": "all byte strings, including non-ASCII", "why_tests_cant": "memory safety over all inputs; a test that does not crash shows nothing", "anchors": ["src/encodings.cpp: BECH32::decode, B32_CHARSET_REV"]}
{"id": "C07", "title": "Base58 round trip", "statement": "BASE58::decode(BASE58::encode(b)) returns b for every byte string b.", "quantifier": "all byte strings, including empty and all-zero ones", "why_tests_cant": "big-number base conversion: carries and leading zeros differ for every length", "anchors": ["src/encodings.cpp: BASE58::encode, BASE58::decode"]}
{"id": "C08", "title": "Base58 encoder stays inside its digit buffer", "statement": "BASE58::encode never writes past the buffer it sizes as |b|·138/100+1 digits, and every non-empty input is encoded without undefined behaviour.", "quantifier": "all non-empty byte strings of any length", "why_tests_cant": "the bound is a number-theoretic inequality over all lengths", "anchors": ["src/encodings.cpp: BASE58::encode"]}
{"id": "C09", "title": "Base58 decoder rejects every string with a character outside the alphabet", "statement": "BASE58::decode throws for any string that contains a character outside the 58-character alphabet.", "quantifier": "all strings", "why_tests_cant": "the property ranges over all invalid strings", "anchors": ["src/encodings.cpp: BASE58::decode, B58_CHARSET_REV"]}
{"id": "C10", "title": "Shelley address text round trip", "statement": "For every base, enterprise and rewards address and network, fromBech32(toBech32()) gives back an address with the same network and the same credential hashes.", "quantifier": "all networks and all 28-byte credential hashes", "why_tests_cant": "2^448 addresses", "anchors": ["src/address.cpp: BaseAddress, EnterpriseAddress, RewardsAddress"]}
{"id": "C11", "title": "Address classes are mutually exclusive", "statement": "A text accepted by one of the classes BaseAddress, EnterpriseAddress, RewardsAddress is refused (exception) by the other two; only the correct length and header type nibble are accepted.", "quantifier": "all texts", "why_tests_cant": "all strings of any length", "anchors": ["src/address.cpp: BaseAddress::fromBech32, EnterpriseAddress::fromBech32, RewardsAddress::fromBech32"]}
{"id": "C12", "title": "Decoded address text re-encodes to itself", "statement": "If X::fromBech32(s) succeeds, then toBech32 of the result is s lower-cased (so the human-readable prefix and the network byte agree).", "quantifier": "all strings accepted", "why_tests_cant": "all accepted strings, including ones produced by other software", "anchors": ["src/address.cpp: fromBech32, toBech32"]}
{"id": "C13", "title": "Chain pointers are encoded uniquely", "statement": "The variable-length encoding of a pointer (slot, tx index, cert index) can be parsed back and two different pointers never have the same encoding.", "quantifier": "all triples of 64-bit values (and all naturals)", "why_tests_cant": "2^192 triples", "anchors": ["src/address.cpp: ChainPointer::toBytes"]}
{"id": "C14", "title": "Byron address CBOR round trip", "statement": "For each Byron address that the API can hold (28-byte root, attributes, type pubkey/script/redeem), decoding toCBOR/toBase58 gives back an equal address.", "quantifier": "all roots, ciphertexts, network magics and types", "why_tests_cant": "all attribute byte strings of any length", "anchors": ["src/address.cpp: ByronAddress::toCBOR, fromCBOR, Attributes::toCBOR, fromCBOR, typeToUint, uintToType"]}
{"id": "C15", "title": "Byron address corruption is detected", "statement": "fromCBOR returns an address only if the CRC-32 stored in the address is that of its payload; every change of the payload confined to 32 consecutive bits, with the stored CRC unchanged, is rejected with an exception, and so is every flip of one to four bits of payload and stored CRC of an ordinary address (payload up to 108 bytes), or of one or two bits of a longer one.", "quantifier": "all addresses, all burst positions and patterns, all sets of flipped bits", "why_tests_cant": "number of corruptions is unbounded", "anchors": ["src/address.cpp: ByronAddress::fromCBOR, crc32"]}
{"id": "C16", "title": "Integer packing is exact", "statement": "BytePacker packs a 32/64-bit integer to its big-endian (little-endian) bytes and unpack is its exact inverse in both directions.", "quantifier": "all integers of the type, all byte arrays of the size", "why_tests_cant": "2^64 values", "anchors": ["include/cardano/util.hpp: BytePacker"]}
{"id": "C17", "title": "Rational approximation respects its bounds", "statement": "rationalApprox(f, md) with md>=1 returns a fraction with denominator between 1 and md, and returns f itself in lowest terms whenever f is a fraction with denominator < md.", "quantifier": "all finite doubles f and bounds md for which the integer arithmetic does not overflow", "why_tests_cant": "the continued-fraction loop depends on all digits of f", "anchors": ["src/util.cpp: rationalApprox"]}
{"id": "C18", "title": "Key files are written completely or not at all", "statement": "After writeEnvelopeTextFile is interrupted at any point, the file holds either the old content or the complete new document.", "quantifier": "all crash points, all contents", "why_tests_cant": "tests cannot place crashes between individual writes", "anchors": ["src/util.cpp: writeEnvelopeTextFile"]}
{"id": "C19", "title": "Mnemonic entropy round trip", "statement": "For every entropy of a supported size, converting it to a mnemonic and back with toEntropy returns the same entropy (and the checksum bits that were appended).", "quantifier": "all entropies of 12,16,20,24,28,32 bytes", "why_tests_cant": "2^256 entropies; 11-bit groups cross byte boundaries at every alignment", "anchors": ["src/mnemonic.cpp: Mnemonic::generate, Mnemonic::toEntropy"]}
{"id": "C20", "title": "Generated mnemonics verify and tampered checksums do not", "statement": "verify_checksum is true exactly when the checksum bits in the phrase equal the leading bits of the SHA-256 digest of its entropy; every generated mnemonic verifies.", "quantifier": "all entropies and all word lists", "why_tests_cant": "2^264 phrases", "anchors": ["src/mnemonic.cpp: verify_checksum"]}
{"id": "C21", "title": "Mnemonic construction rejects malformed phrases", "statement": "Constructing a mnemonic from a phrase throws if the number of words is not one of 9,12,15,18,21,24 or some word is not in the dictionary; an accepted phrase prints back as itself.", "quantifier": "all phrases", "why_tests_cant": "all strings", "anchors": ["src/mnemonic.cpp: Mnemonic::Mnemonic"]}
{"id": "C22", "title": "KES signatures verify in every period", "statement": "For every depth and seed, after any t < 2^depth updates the key signs any message so that the signature verifies for period t under the public key returned at generation.", "quantifier": "all depths, seeds, periods, messages", "why_tests_cant": "2^depth periods per seed; recursive tree structure", "anchors": ["include/cardano/kes.hpp: SumKesPrivateKey sign/update, SumKesSignature::verify"]}
{"id": "C23", "title": "KES public key never changes", "statement": "The public key obtained from a signing key is the same after any number of updates and equals the public key returned by generate.", "quantifier": "all depths, seeds, numbers of updates", "why_tests_cant": "histories of updates", "anchors": ["include/cardano/kes.hpp: toPublic, update, keygen"]}
{"id": "C24", "title": "KES keys evolve exactly 2^depth − 1 times", "statement": "Exactly 2^depth − 1 updates succeed; every later update throws and leaves the key unchanged; period() counts the updates.", "quantifier": "all depths, seeds and update histories", "why_tests_cant": "histories up to 2^depth", "anchors": ["include/cardano/kes.hpp: update_buffer, update"]}
{"id": "C25", "title": "KES forward security of the buffer", "statement": "After an update past period t no leaf seed of a period <= t, and no internal seed from which one can be derived, remains in the key buffer.", "quantifier": "all depths, seeds, periods", "why_tests_cant": "every intermediate state of the tree", "anchors": ["include/cardano/kes.hpp: update_buffer, keygen_buffer"]}
{"id": "C26", "title": "Compact KES signatures verify", "statement": "As for ordinary KES signatures: the compact signature made in period t verifies for period t under the generation-time public key.", "quantifier": "all depths, seeds, periods, messages", "why_tests_cant": "2^depth periods per seed", "anchors": ["include/cardano/kes.hpp: sign_compact, SumCompactKesSignature::verify/recompute"]}
{"id": "C27", "title": "A KES key restored from its bytes behaves like the original", "statement": "A signing key rebuilt from the bytes of another key produces the same ordinary and compact signatures and updates, and reports the same period.", "quantifier": "all depths, periods", "why_tests_cant": "all reachable keys", "anchors": ["include/cardano/kes.hpp: SumKesPrivateKey(bytes), getBytes"]}
{"id": "C28", "title": "A KES signature is accepted for one period only", "statement": "A signature made in period t is not accepted for another period t' < 2^depth, unless two different leaves share a public key or a hash/signature coincidence occurs; periods >= 2^depth are rejected.", "quantifier": "all depths, seeds, t, t'", "why_tests_cant": "all pairs of periods", "anchors": ["include/cardano/kes.hpp: SumKesSignature::verify"]}
{"id": "C29", "title": "Public and private child derivation agree", "statement": "For every extended private key and every non-hardened index, the public key of the derived child equals the child derived from the public key, for both derivation modes, including chain codes, whenever the scalars stay below 2^256 (every key reached from a clamped root by fewer than 2^28 derivations); above that, V2 derivation agrees exactly when the addition does not overflow 256 bits.", "quantifier": "all extended keys and all non-hardened indices", "why_tests_cant": "2^256 keys × 2^31 indices; carries in byte arithmetic", "anchors": ["src/bip32_ed25519.cpp: PrivateKey::deriveChild, PublicKey::deriveChild"]}
{"id": "C30", "title": "Root keys are clamped", "statement": "The scalar of every root key made from seed/mnemonic (Icarus and Byron) is a multiple of 8 in [2^254, 2^255), and the public key can be computed.", "quantifier": "all seeds", "why_tests_cant": "2^256 seeds", "anchors": ["src/bip32_ed25519.cpp: tweak_bits_icarus, tweak_bits_byron, PrivateKey::fromSeed"]}
{"id": "C31", "title": "Hardened derivation needs the private key", "statement": "PublicKey::deriveChild throws invalid_argument for every index >= 2^31 and for no other; below 2^31 it succeeds exactly if the key is a curve point and the added scalar is not a multiple of the group order (else runtime_error); HardenIndex is idempotent and always produces a hardened index.", "quantifier": "all 32-bit indices", "why_tests_cant": "2^32 indices × keys", "anchors": ["src/bip32_ed25519.cpp: PublicKey::deriveChild, HardenIndex"]}
{"id": "C32", "title": "Encrypted keys decrypt with the same password", "statement": "Decrypting an encrypted key with the password used for encryption returns the original key, for every key and password including the empty one.", "quantifier": "all keys and passwords", "why_tests_cant": "all passwords", "anchors": ["src/bip32_ed25519.cpp: PrivateKey::encrypt, EncryptedPrivateKey::decrypt, encrypt/decrypt"]}
{"id": "C33", "title": "Extended-key signatures verify", "statement": "A signature made with an extended private key verifies under its public key for every message.", "quantifier": "all keys and messages", "why_tests_cant": "all keys and messages", "anchors": ["src/bip32_ed25519.cpp: PrivateKey::sign"]}
{"id": "C34", "title": "Derived private keys keep the scalar a multiple of eight and derivation index encodings are unique", "statement": "V2 child derivation adds exactly 8 times a 224-bit number, so a parent scalar divisible by 8 has children divisible by 8; different indices give different serialized indices.", "quantifier": "all parents, all indices", "why_tests_cant": "2^256 parents", "anchors": ["src/bip32_ed25519.cpp: add_left, add_256bits, index serialization"]}
{"id": "C35", "title": "Shamir shares reconstruct the key", "statement": "From any set of at least t shares with distinct ids dealt by the dealer (in any order, with repeated copies), reconstruction returns the root scalar; with fewer than t it throws.", "quantifier": "all n, t, root scalars, polynomials, subsets and orders", "why_tests_cant": "all subsets of shares", "anchors": ["src/tss.cpp: sss::split, reconstruct, computeLagrangeCoefficients"]}
{"id": "C36", "title": "Fewer than t shares reveal nothing about the key", "statement": "For every set of fewer than t share ids and every candidate secret there is a dealer polynomial of degree t-1 with that secret giving exactly the observed shares.", "quantifier": "all n, t, share subsets, secrets", "why_tests_cant": "a statement about all polynomials", "anchors": ["src/tss.cpp: sss::split"]}
{"id": "C37", "title": "Direct split shares sum to the key and returned public key is the root's", "statement": "With n-of-n direct sharing, the shares add up to the root scalar modulo the group order, and the public key handed out by the dealer is that of the root key.", "quantifier": "all n>=1, all root keys, all random shares", "why_tests_cant": "all n", "anchors": ["src/tss.cpp: Dealer::split direct"]}
{"id": "C38", "title": "Threshold signatures verify under the root public key", "statement": "If t signers (SSS) or all n signers (Direct) follow the protocol, the aggregated signature verifies under the root public key, for every message, nonce choice and order of shares.", "quantifier": "all n, t, signer subsets, nonces, messages, orders", "why_tests_cant": "all subsets, nonces and orders", "anchors": ["src/tss.cpp: StatefulSigner, aggregateCommitmentShares, aggregateSignatureShares"]}
{"id": "C39", "title": "Lagrange coefficient computation rejects bad ids", "statement": "computeLagrangeCoefficients throws if an id is 0 or repeated, and otherwise returns one coefficient per id whose weighted power sums interpolate at 0.", "quantifier": "all id lists", "why_tests_cant": "all lists of 32-bit ids", "anchors": ["src/tss.cpp: computeLagrangeCoefficients"]}
{"id": "C40", "title": "Dealer rejects invalid parameters and deals one share per participant", "statement": "Dealing throws when n=0, t=0, t>n or (Direct) t≠n; otherwise exactly n shares with ids 1..n are produced.", "quantifier": "all 32-bit n and t", "why_tests_cant": "2^64 parameter pairs", "anchors": ["src/tss.cpp: Dealer"]}
{"id": "C41", "title": "Aggregation rejects inconsistent shares and never leaves defined behaviour", "statement": "aggregateSignatureShares throws if the shares do not carry the same commitment; on any list of shares, including the empty one, it returns or throws.", "quantifier": "all lists of shares", "why_tests_cant": "all lists", "anchors": ["src/tss.cpp: aggregateSignatureShares, aggregateCommitmentShares"]}
{"id": "C42", "title": "A signer's nonce is used for at most one signature", "statement": "A StatefulSigner never produces two signature shares for different messages with the same nonce.", "quantifier": "all call histories on a signer", "why_tests_cant": "call histories", "anchors": ["src/tss.cpp: StatefulSigner::commitmentShare, signatureShare"]}
{"id": "C43", "title": "Transactions round trip through CBOR", "statement": "Deserializing the serialization of a Shelley transaction body/transaction returns an equal object (inputs, outputs, fee, ttl, certificates, withdrawals, metadata hash, key witnesses).", "quantifier": "all transaction values", "why_tests_cant": "recursive structure of unbounded size", "anchors": ["src/shelley/ledger.cpp: TransactionBody, TransactionInput, TransactionOutput, TransactionWitnessSet, Transaction; include/cardano/serialization.hpp"]}
{"id": "C44", "title": "Certificates round trip through CBOR", "statement": "Every certificate kind (stake registration, deregistration, delegation, pool registration, pool retirement, genesis key delegation, MIR) deserializes to the certificate that was serialized.", "quantifier": "all certificates", "why_tests_cant": "all field values and list lengths", "anchors": ["src/shelley/ledger.cpp: Certificate, PoolRegistration, GenesisKeyDelegation, MoveInstantaneousReward"]}
{"id": "C45", "title": "Pool relays round trip through CBOR", "statement": "Every relay (single address with any combination of port/IPv4/IPv6, host name, multi host name) serializes and deserializes to itself.", "quantifier": "all relays", "why_tests_cant": "all optional-field combinations", "anchors": ["src/shelley/ledger.cpp: Relay"]}
{"id": "C46", "title": "Native scripts round trip through CBOR", "statement": "Every multisig script (pubkey, all, any, n-of-k, nested to any depth) deserializes to the script that was serialized.", "quantifier": "all scripts of any nesting depth", "why_tests_cant": "recursive structure", "anchors": ["src/shelley/ledger.cpp: MultisigScript"]}
{"id": "C47", "title": "CBOR item encoding is uniquely decodable", "statement": "The CBOR encoder's output for any item tree is parsed back to that tree, and no encoding is a proper prefix of another.", "quantifier": "all item trees", "why_tests_cant": "recursive structure", "anchors": ["include/cardano/serialization.hpp", "cppbor (modelled)"]}
{"id": "C48", "title": "Transaction id and bytes do not depend on insertion order or on witnesses", "statement": "Adding the same inputs/withdrawals in any order gives the same transaction body bytes and id, and signing never changes the id.", "quantifier": "all permutations of builder calls", "why_tests_cant": "all orders", "anchors": ["src/shelley/transaction.cpp: addInput, addWithdrawal, getID, sign"]}
{"id": "C49", "title": "A built transaction's key witnesses are valid for its body", "statement": "Whatever builder calls are made, every key witness in the builder signs the id of the current body.", "quantifier": "all histories of builder calls", "why_tests_cant": "histories", "anchors": ["src/shelley/transaction.cpp: TransactionBuilder add*/set*/sign"]}
{"id": "C50", "title": "At most one witness per verification key", "statement": "For every history of builder calls, no two key witnesses have the same verification key.", "quantifier": "all histories", "why_tests_cant": "histories", "anchors": ["src/shelley/transaction.cpp: TransactionBuilder::sign"]}
{"id": "C51", "title": "Builder totals equal the body's totals", "statement": "For every history, the builder's running totals equal the sums over the body's distinct inputs, withdrawals and outputs.", "quantifier": "all histories", "why_tests_cant": "histories", "anchors": ["src/shelley/transaction.cpp: addInput, addOutput, addWithdrawal, addCertificate"]}
{"id": "C52", "title": "Balanced transactions preserve value", "statement": "If balance succeeds, the value entering (inputs, withdrawals, refunds) equals value leaving (outputs, fee, deposits).", "quantifier": "all builder states and flags", "why_tests_cant": "all builder states", "anchors": ["src/shelley/transaction.cpp: TransactionBuilder::balance"]}
{"id": "C53", "title": "Balanced and fee-updated transactions pay at least the minimum fee", "statement": "After balance or updateFee succeeds, fee >= a*size+b for the size of the final transaction with the announced number of key witnesses.", "quantifier": "all builder states", "why_tests_cant": "fee depends on size which depends on fee", "anchors": ["src/shelley/transaction.cpp: calculateFee, updateFee, balance"]}
{"id": "C54", "title": "Fee computation terminates at the least self-consistent fee", "statement": "calculateFee returns a fee f with f = a*size(f)+b, the least such, for every body.", "quantifier": "all bodies, fee parameters", "why_tests_cant": "fixpoint iteration with data-dependent number of steps", "anchors": ["src/shelley/transaction.cpp: calculateFee"]}
{"id": "C55", "title": "Balancing never changes the recipients' outputs", "statement": "balance either keeps all outputs the user added as they are, only appending a change output, or throws.", "quantifier": "all builder states", "why_tests_cant": "all builder states", "anchors": ["src/shelley/transaction.cpp: TransactionBuilder::balance"]}
{"id": "C56", "title": "Operational certificates verify and bind their fields", "statement": "A generated operational certificate verifies under the cold key; the signed message determines hot key, counter and period uniquely; the certificate round-trips through CBOR.", "quantifier": "all keys, counters, periods", "why_tests_cant": "2^128 counter/period pairs", "anchors": ["src/stake_pool.cpp: OperationalCertificateManager"]}
{"id": "C57", "title": "Issue counter is monotone over certificate issuance", "statement": "Each certificate issued with a counter consumes it: two certificates issued one after the other never carry the same counter value.", "quantifier": "all histories of issue/increment calls", "why_tests_cant": "histories", "anchors": ["src/stake_pool.cpp: OperationalCertificateIssueCounter, OperationalCertificateManager::generate"]}
{"id": "C58", "title": "Pool registration parameters stay valid", "statement": "For every history of setter calls the certificate's margin is in [0,1] and its cost is at least the protocol minimum.", "quantifier": "all histories of setter calls", "why_tests_cant": "histories", "anchors": ["src/stake_pool.cpp: RegistrationCertificateManager"]}
{"id": "C59", "title": "VRF keys are consistent", "statement": "A VRF secret key made from a seed is valid, its public key is the one derived from the seed, and proofs it makes verify under that public key and hash to the same output.", "quantifier": "all seeds and messages", "why_tests_cant": "all seeds/messages", "anchors": ["src/vrf.cpp: VrfSecretKey, VrfPublicKey"]}
{"id": "C60", "title": "Genesis configuration JSON round trip", "statement": "Reading a genesis configuration written by the library gives back the same configuration (Byron, Shelley, Alonzo, Conway).", "quantifier": "all configurations", "why_tests_cant": "all field values", "anchors": ["src/shelley/genesis.cpp, src/byron/genesis.cpp, src/alonzo/genesis.cpp, src/conway/genesis.cpp"]}
{"id": "C61", "title": "Bech32 follows BIP-173", "statement": "decode accepts exactly the strings that BIP-173 defines (except for its limit of 90 characters and its ban on mixed case) and returns the standard's prefix and payload; encode writes the standard's string.", "quantifier": "all byte strings", "why_tests_cant": "the checksum polynomial and the regrouping must be right for all inputs; a wrong generator still round-trips", "anchors": ["src/encodings.cpp: polymod, expand_hrp, verify_checksum, convertbits, BECH32::encode, BECH32::decode"]}
{"id": "C62", "title": "Shelley addresses follow CIP-19", "statement": "The bytes of an address are the CIP-19 header byte (type and network) followed by the key hashes, and its text is the Bech32 string of these bytes with the standard prefix.", "quantifier": "all networks and hashes", "why_tests_cant": "all hashes", "anchors": ["src/address.cpp: BaseAddress, EnterpriseAddress, RewardsAddress, BuildHeaderByte"]}
{"id": "C63", "title": "An accepted KES signature is one of the leaf of its period", "statement": "If a (compact or full) signature verifies under a generated verification key for period t, its first 64 bytes are a valid signature of the message under the key of leaf t of the tree, or a hash collision is exhibited.", "quantifier": "all depths, seeds, periods, messages and signature bytes", "why_tests_cant": "all byte strings as signatures", "anchors": ["include/cardano/kes.hpp: SumKesSignature::verify, SumKesCompactSignature::verify, recompute"]}
{"id": "C64", "title": "Serialized transactions follow the ledger CDDL", "statement": "The CBOR written for a transaction, and for each certificate, script, relay and witness set in it, is an instance of the ledger's CDDL grammar (shelley.cddl / babbage.cddl), so that a node can read it.", "quantifier": "all transaction values", "why_tests_cant": "unbounded lists and nesting; both sides of a round-trip test share the same mistake", "anchors": ["src/shelley/ledger.cpp: serializer() of every type", "src/babbage/ledger.cpp"]}
{"id": "C65", "title": "Deserializing untrusted bytes never leaves defined behaviour", "statement": "deserialize returns a value or throws on every byte string; it never reads memory it does not own or uninitialised bytes.", "quantifier": "all byte strings", "why_tests_cant": "all byte strings", "anchors": ["src/shelley/ledger.cpp: deserialize() of every type", "include/cardano/serialization.hpp"]}
{"id": "C66", "title": "Transaction bytes bind their contents", "statement": "Two transaction bodies with the same bytes (hence the same id up to hash collisions) have the same inputs, outputs, fee, time to live, certificates, withdrawals and metadata hash.", "quantifier": "all pairs of bodies", "why_tests_cant": "all pairs", "anchors": ["src/shelley/ledger.cpp: TransactionBody::serializer", "src/babbage/ledger.cpp: TransactionBody::serializer"]}
{"id": "C67", "title": "Forced balancing succeeds when the funds suffice", "statement": "If the inputs and withdrawals cover the outputs, deposits and the minimum fee of the transaction as built, balance(n, true) succeeds (never throws, never runs for ever) and keeps the outputs, appending at most one to the change address.", "quantifier": "all builder states, fee parameters, witness counts", "why_tests_cant": "the loop's behaviour depends on encoded sizes of the fee and of the change amount", "anchors": ["src/shelley/transaction.cpp: TransactionBuilder::balance, updateFee, calculateFee"]}
{"id": "C68", "title": "Balancing creates no output below the minimum", "statement": "Whatever balance does, every output of the transaction afterwards was there before, or holds at least 1 ADA (and less than 2^63 lovelace) and goes to the change address or to an address that was paid before: balancing pays nobody new.", "quantifier": "all builder states, witness counts, flags, outcomes", "why_tests_cant": "all builder states", "anchors": ["src/shelley/transaction.cpp: TransactionBuilder::balance"]}
{"id": "C69", "title": "Balancing without force wastes nothing", "statement": "If balance(n, false) succeeds, the fee is the least fee equal to the minimum fee of the transaction that carries it.", "quantifier": "all builder states", "why_tests_cant": "fee depends on size which depends on fee", "anchors": ["src/shelley/transaction.cpp: TransactionBuilder::balance"]}
{"id": "C70", "title": "Decoded objects are well formed and re-serialize stably", "statement": "Whatever bytes are decoded, a successfully decoded ledger object holds only values its type allows (hash lengths, 64-bit amounts, sorted sets), and serializing it gives bytes that decode to the same object.", "quantifier": "all byte strings", "why_tests_cant": "all byte strings, nested to any depth", "anchors": ["src/shelley/ledger.cpp: serialize()/deserialize() of every type", "include/cardano/serialization.hpp"]}
{"id": "C71", "title": "Ed25519 signatures follow RFC 8032 and verify", "statement": "A signature made by a plain Ed25519 private key is the RFC 8032 signature, verifies under the key's public key, and the extended key made from the same seed has the same public key.", "quantifier": "all 32-byte keys and messages", "why_tests_cant": "all keys and messages; the one exceptional nonce cannot be found by testing", "anchors": ["src/ed25519.cpp: PrivateKey::sign, publicKey, generate, extend; PublicKey::verifySignature"]}
{"id": "C72", "title": "Saved key files hold the whole key", "statement": "The file written by saveToFile of a stake pool key holds the node's envelope with the key's bytes, and the key rebuilt from the bytes in the file is the same key: same material, same period, same signatures, same behaviour under update.", "quantifier": "all keys, all periods of a KES key", "why_tests_cant": "all keys and all update histories before saving", "anchors": ["src/stake_pool.cpp: saveToFile of cold, extended cold, VRF and KES keys", "include/cardano/kes.hpp: SumKesPrivateKey(bytes), update"]}
{"id": "C73", "title": "Genesis files are read faithfully", "statement": "Loading a genesis file gives a configuration whose every field equals the value in the file; files with missing or ill-typed values, or numbers that do not fit, are refused.", "quantifier": "all JSON documents", "why_tests_cant": "all documents", "anchors": ["src/byron/genesis.cpp, src/shelley/genesis.cpp, src/alonzo/genesis.cpp, src/conway/genesis.cpp: from_json, fromFile"]}
{"id": "C74", "title": "Keys derived from a seed phrase follow the standard paths", "statement": "Derivation from an Icarus root succeeds along every path and gives the key of the BIP32-Ed25519 paper; the stake pool cold key from a root key or seed phrase is the one at path 1853'/1815'/0'/0' of CIP-1853.", "quantifier": "all seed phrases, roots and paths", "why_tests_cant": "all roots and paths; the failing scalars cannot be found by testing", "anchors": ["src/stake_pool.cpp: ExtendedColdSigningKey::fromRootKey, fromMnemonic", "src/bip32_ed25519.cpp: PrivateKey::deriveChild, fromMnemonic"]}
{"id": "C75", "title": "Stake pool certificate files are what the node expects", "statement": "The files written for operational certificates, issue counters, registrations and retirements are the node's envelopes: right type, description, and the ledger's encoding of the certificate in hexadecimal.", "quantifier": "all certificates, counters, epochs, keys", "why_tests_cant": "all field values", "anchors": ["src/stake_pool.cpp: saveToFile of OperationalCertificateManager, OperationalCertificateIssueCounter, RegistrationCertificateManager, DeregistrationCertificateManager"]}
{"id": "C76", "title": "Babbage builder: every witness signs the current body, by exactly the keys that signed since the last change", "statement": "After any sequence of public calls on a new babbage::TransactionBuilder (including calls that throw), every key witness in the transaction is a valid signature of the id (Blake2b-256 of the serialized body) of the transaction as it is now; no two witnesses carry the same key; and the keys present are exactly those whose sign() succeeded after the last call that changed the body or cleared the witnesses.", "quantifier": "all histories of calls, all arguments, both kinds of signing key", "why_tests_cant": "stale signatures appear only for particular interleavings of sign() and mutators; the number of histories is unbounded", "anchors": ["src/babbage/transaction.cpp: addInput, addOutput, addWithdrawal, setFee, setTtl, calculateFee, sign, clearWitnessSet, getID", "include/cardano/transaction.hpp: babbage::TransactionBuilder"]}
{"id": "C77", "title": "Babbage builder: calculateFee finds a self-consistent minimum fee and terminates", "statement": "babbage::TransactionBuilder::calculateFee(n) returns a fee f equal to minFeeA * size + minFeeB where size is the size of the transaction carrying fee f and any n key witnesses; f is stored in the transaction; a transaction signed afterwards with at most n keys pays at least the minimum fee of its actual bytes. Holds whenever fees fit 64 bits; the call discards existing signatures, its result can depend on the fee set before, and with overflowing coefficients it may never return.", "quantifier": "all transactions, numbers of witnesses, starting fees and coefficients", "why_tests_cant": "termination and fixed points of the iteration depend on encoding-size thresholds that samples miss", "anchors": ["src/babbage/transaction.cpp: calculateFee, serialize, sign"]}
{"id": "C78", "title": "Babbage builder: the transaction is exactly what was asked for", "statement": "After any history of calls on a new babbage::TransactionBuilder the body holds the set of valid inputs given, all outputs in call order and in the requested format, the last withdrawal per address, the last ttl and the last fee, nothing else; serialize() yields bytes conforming to the Babbage CDDL; two histories give the same body bytes (hence id) exactly if they ask for the same transaction.", "quantifier": "all histories of calls and all arguments", "why_tests_cant": "an unbounded set of histories; needs injectivity of the encoding", "anchors": ["src/babbage/transaction.cpp: addInput, addOutput, addWithdrawal, setFee, setTtl, balance, getID, serialize", "src/ledger.cpp: babbage serializers"]}
{"id": "C79", "title": "Byron addresses made from a root key are the published ones", "statement": "ByronAddress::fromRootKey with a two-index path gives the address whose root is Blake2b-224 of SHA3-256 of [0,[0,xpub],attributes] for the V1-derived grandchild key, whose attributes carry the encrypted path (openable with the key stretched from the root public key) and the network magic; its text reads back to the same address; different paths or magics give different addresses; other path lengths are refused.", "quantifier": "all root keys, paths and magics", "why_tests_cant": "all keys and 2^64 paths; the path format breaks only at lengths no test uses", "anchors": ["src/address.cpp: ByronAddress::fromRootKey, ByronAddress::Attributes::fromKey, sha3_then_blake2b224, ByronAddress::toCBOR"]}
{"id": "C80", "title": "Lovelace survives the round trip through ADA", "statement": "ada2love(love2ada(x)) == x for every amount x up to the total supply; whole ADA amounts are exact in both directions; ada2love is monotone and odd and never leaves defined behaviour for amounts up to the supply.", "quantifier": "all 64-bit amounts, all doubles", "why_tests_cant": "2^63 amounts; the failing ones (first at 249 lovelace) are scattered", "anchors": ["include/cardano/util.hpp: love2ada, ada2love"]}
{"id": "C81", "title": "Secrets are locked in memory while they live and erased afterwards", "statement": "While a SecureByteArray (the storage of every private key) is alive its pages are locked against swapping, and after it is destroyed its bytes are zero; nothing outside the arrays is written; a refused lock is reported.", "quantifier": "all histories of constructing, copying, assigning, writing and destroying arrays, all placements in memory, all outcomes of mlock", "why_tests_cant": "unlocking of a neighbour depends on how objects share pages and on the order of destruction", "anchors": ["include/cardano/secmem.hpp: SecureByteArray"]}
{"id": "C82", "title": "Unspent outputs are read faithfully from Ogmios JSON", "statement": "UTxO::fromJSON returns the transaction id, index and lovelace of the document, and throws for every document that is not of the format; UTxO comparison is a strict total order on (id, index).", "quantifier": "all JSON documents", "why_tests_cant": "all documents", "anchors": ["src/shelley/transaction.cpp: UTxO::fromJSON", "include/cardano/transaction.hpp: UTxO"]}
{"id": "C83", "title": "Bech32 detects up to three substitutions in an address and up to four in a BIP-173 string", "statement": "Replace characters of a string accepted by BECH32::decode by other ASCII characters, leaving the separator in place; a changed data character counts once, a changed prefix character twice, letter case not at all. If 1 to 3 are counted and the string has at most 1023 symbols, or 1 to 4 and it has at most 89, decode throws. In particular an address text of at most 500 characters with one to three wrong characters behind the separator is accepted by no fromBech32.", "quantifier": "all accepted strings, all sets of positions and all replacement characters within the bounds", "why_tests_cant": "the number of (string, positions, replacements) is far beyond enumeration: more than 10^11 error patterns for one address", "anchors": ["src/encodings.cpp: polymod, verify_checksum, BECH32::decode", "src/address.cpp: BaseAddress::fromBech32, EnterpriseAddress::fromBech32, RewardsAddress::fromBech32"]}
{"id": "C84", "title": "Reading bytes into an object replaces it completely or leaves it alone", "statement": "deserialize() is a member function of every ledger type. Called on any object, whatever it held before: if it returns, the object is exactly the value in the bytes (the same whatever the object was); if it throws, the object is unchanged.", "quantifier": "all ledger types, all byte strings, all previous contents of the object, all points at which reading can fail", "why_tests_cant": "the previous contents and the failure point both range over infinite sets; tests deserialize into fresh objects and discard them on failure", "anchors": ["src/shelley/ledger.cpp: all deserialize members", "include/cardano/serialization.hpp: CborSerializable::deserialize", "include/cardano/serialization.hpp: Rational"]}
{"id": "C85", "title": "A builder call that throws changes nothing", "statement": "If a call on a shelley::TransactionBuilder or babbage::TransactionBuilder throws, the builder is as it was before the call, so a caller can catch the exception, repair the cause (for example add an input) and repeat the call.", "quantifier": "all builders (any history of calls before), all calls and arguments, all causes of failure", "why_tests_cant": "the failing states and their number of outputs are unbounded; what is left of the outputs depends on how many rounds balance made before giving up", "anchors": ["src/shelley/transaction.cpp: addInput, updateFee, balance, sign", "src/babbage/transaction.cpp: addInput, balance, sign"]}
{"id": "C86", "title": "Extended keys survive being stored as bytes", "statement": "bip32_ed25519::PrivateKey and PublicKey built from the bytes given by xbytes() are the same keys, and every 96-byte (64-byte) string is the xbytes() of the key it makes: key first, chain code last; the public key of a stored private key is that of the key.", "quantifier": "all private and public extended keys, all byte strings of the right length", "why_tests_cant": "2^768 keys", "anchors": ["src/bip32_ed25519.cpp: PrivateKey::PrivateKey, PrivateKey::xbytes, PublicKey::PublicKey, PublicKey::xbytes"]}
{"id": "C87", "title": "The class of an exception says what was wrong", "statement": "Encodings, Byron addresses, mnemonics and threshold-signature parameter checks throw only std::invalid_argument; VRF functions only std::runtime_error; Shelley addresses throw runtime_error exactly for a well-formed address of another kind; genesis readers throw runtime_error exactly if the file cannot be opened; ledger deserializers throw only runtime_error and invalid_argument, and for each ledger type the inputs with each exception (and those with undefined behaviour) are exactly the ones in the table: bytes of the wrong structure or hashes of the wrong length, decided by the first malformed element.", "quantifier": "all inputs of all decoding functions, nested to any depth", "why_tests_cant": "malformed inputs are unbounded in size, nesting and position of the fault", "anchors": ["src/shelley/ledger.cpp: all deserializer members", "include/cardano/serialization.hpp", "src/encodings.cpp", "src/address.cpp", "src/mnemonic.cpp", "src/tss.cpp", "src/vrf.cpp", "src/byron/genesis.cpp, src/shelley/genesis.cpp, src/alonzo/genesis.cpp, src/conway/genesis.cpp"]}
{"id": "C88", "title": "Fewer than all direct shares reveal nothing about the key", "statement": "A dealer without threshold (n-of-n, direct sharing) deals n shares. Whoever holds any n-1 of them learns nothing: every other key is compatible with the observed shares.", "quantifier": "all keys, all numbers of shares, all random numbers, every choice of missing shares", "why_tests_cant": "a statement about all keys and all random numbers compatible with an observation", "anchors": ["src/tss.cpp: Ed25519DirectKeySplit, Dealer::splitRootKey", "src/bip32_ed25519.cpp: PrivateKey::generate"]}
{"id": "C89", "title": "A seed phrase means the same in every language in which it is accepted", "statement": "A text accepted by Mnemonic's string constructor in one language is refused in any other, or stands for the same entropy there; so a phrase entered with the wrong language setting is either refused or harmless.", "quantifier": "all texts, all pairs of the ten languages", "why_tests_cant": "2048^24 texts in each of 45 pairs of languages", "anchors": ["src/mnemonic.cpp: Mnemonic::Mnemonic, toEntropy", "include/cardano/bip39_dictionary.hpp: all word lists"]}
{"id": "C90", "title": "An address made from keys pays exactly these keys, also in a watch-only wallet", "statement": "BaseAddress::fromKeys, EnterpriseAddress::fromKey and RewardsAddress::fromKey give the CIP-19 address with the Blake2b-224 hashes of the given public keys (payment first); its text form is read back, and two texts are equal only for the same network and the same keys, up to hash collisions. A watch-only wallet that derives keys from an account's public key gets, along every non-hardened path, the public key of the privately derived key, so whatever is paid to its addresses can be spent by the owner of the root key; the only alternative is an exception.", "quantifier": "all keys and networks, all roots of seed phrases, all account paths and soft paths of fewer than 2^26 steps", "why_tests_cant": "keys and paths are unbounded; tests follow a few paths from a few roots", "anchors": ["src/address.cpp: HashPublicKey, BaseAddress::fromKeys, EnterpriseAddress::fromKey, RewardsAddress::fromKey, toBytesRaw", "src/bip32_ed25519.cpp: PublicKey::deriveChild, PrivateKey::deriveChild, PrivateKey::publicKey"]}
{"id": "C91", "title": "The network accepts what the builder balanced and signed", "statement": "If a wallet adds its own unspent outputs with their true values, withdraws from its own reward accounts, announces the true deposits, pays at least the minimum, sets a time to live, a change address and the network's fee parameters, then after balance() and sign() with its keys the Shelley transaction satisfies the UTXO and UTXOW rules of the Shelley ledger (inputs exist, value is preserved, the fee and size limits hold, outputs are large enough and on the right network, every witness verifies and every required key has signed) exactly when the builder has counted the incoming money right: always if every input and withdrawal address is given once and no stake key is deregistered; otherwise only if repeated amounts and forgotten refunds happen to be equal. If the funds cover payments, deposits and fee, balance(force) does not fail and every payment is made in full.", "quantifier": "all histories of builder calls that prepare a transaction in this way, all ledger states, protocol parameters, keys and numbers of witnesses", "why_tests_cant": "the number of inputs, outputs, certificates and keys is unbounded, and the fee depends on the size of what is signed later", "anchors": ["src/shelley/transaction.cpp: TransactionBuilder (all members)", "src/shelley/ledger.cpp: Transaction::serialize", "src/ed25519.cpp", "src/bip32_ed25519.cpp: PrivateKey::sign", "src/address.cpp"]}
{"id": "C92", "title": "The network accepts the blocks of a careful pool operator", "statement": "An operator who generates KES keys from fresh seeds, issues an operational certificate for each with the stored counter and the current period, increments the counter, evolves the key every period and rotates before the key's lifetime ends, produces only blocks that satisfy the network's operational-certificate rule: the certificate has started and not expired, its counter is not older than the last one seen, the cold key's signature covers hot key, counter and period, and the KES signature of the header verifies in the block's period. Since Babbage the counter may not skip a number, so each certificate must be used for a block before the next; otherwise the block is rejected. An operator who misses the end of a key's life gets an exception.", "quantifier": "all histories of periods, rotations and blocks, all key depths below 32, all seeds, headers, counters and lifetimes", "why_tests_cant": "histories are unbounded and the signature's validity depends on the age of the key in every period", "anchors": ["include/cardano/kes.hpp: SumKesPrivateKey keygen, update, sign; SumKesSignature verify", "src/stake_pool.cpp: OperationalCertificateManager::generate, OperationalCertificateIssueCounter::increment"]}
{"id": "C93", "title": "A Babbage transaction balanced in two passes is accepted", "statement": "balance() of the Babbage builder always throws, so wallets balance by hand. If a wallet prepares the transaction with all of the remaining value as change, asks calculateFee for n witnesses, prepares it again with the change reduced by that fee, sets the fee and signs with at most n keys, then the transaction satisfies the Babbage UTXO and UTXOW rules: format, validity interval, existing inputs, preserved value, fee and size for the signed bytes, minimum amounts, networks, valid witnesses and all required signatures - provided the change covers its own minimum.", "quantifier": "all histories of builder calls that prepare a transaction from the wallet's own unspent outputs and reward accounts, all ledger states, parameters, keys and numbers of witnesses", "why_tests_cant": "the fee is computed for another transaction (larger change, dummy witnesses) than the one that is sent; sizes and counts are unbounded", "anchors": ["src/babbage/transaction.cpp: TransactionBuilder (all members)", "src/ledger.cpp: babbage::TransactionBody::serializer, babbage::Transaction::serializer"]}
{"id": "C94", "title": "A wallet is restored from its seed phrase", "statement": "Generate a phrase, derive a root key (with any passphrase) and show the CIP-1852 address number i of an account. Typing the words in again (same language) is accepted, passes the checksum and gives the same root; the key derived along the path is the one the network asks for when money at that address is spent, and the stake key is the one of the reward account. The language does not matter for the keys. An encrypted backup of the root restores it. The checksum is not part of the key: all 2^(n/3) variants of the last word are accepted and give the same wallet, although only one passes verify_checksum.", "quantifier": "all phrase sizes, entropies, languages, passphrases, accounts, address numbers, networks and passwords", "why_tests_cant": "2^128 and more entropies times paths; composes word lists, PBKDF2, derivation, hashing and Bech32", "anchors": ["src/mnemonic.cpp: Mnemonic::generate, Mnemonic(string)", "src/bip32_ed25519.cpp: PrivateKey::fromMnemonic, deriveChild, encrypt, EncryptedPrivateKey::decrypt", "src/address.cpp: BaseAddress, RewardsAddress"]}
{"id": "C95", "title": "The files of the example program belong together", "statement": "For every accepted phrase, examples/generate_stake_pool_keys ends normally, writes its eight files and nothing else, in the node's format: cold.vkey is the public key of cold.skey, pool.cert is about kes.vkey, has number 0 and starting period 1 and is signed by the cold key, kes.skey signs for kes.vkey in all 64 periods, vrf.skey makes proofs for vrf.vkey, the printed pool id is the hash of cold.vkey, cold.counter says 0. If a file cannot be opened the program stops there with an exception: earlier files are complete, later ones untouched. On devices that run out of space each opened file holds exactly what the device took. A phrase that is not accepted writes nothing.", "quantifier": "all phrases, random numbers, contents of the directory and device behaviours (files that cannot be opened, any amount of free space, any buffer size)", "why_tests_cant": "random keys and failures at each of eight files; the files are only meaningful together", "anchors": ["examples/generate_stake_pool_keys/main.cpp: main", "src/stake_pool.cpp: saveToFile functions, OperationalCertificateManager::generate"]}
{"id": "C96", "title": "A group wallet: threshold signatures spend the group's money", "statement": "Deal a root key with a TSS dealer and send money to an address of the group's public key. Any group of at least t Shamir share holders (or all of at least two holders of a direct sharing) that runs the signing protocol on the id shown by the builder for a prepared and balanced transaction obtains a signature which, added to the witness set under the group key (together with the witnesses of ordinary keys signed by the builder), makes a transaction the network accepts (if the builder has counted the money right, see C91), in whatever order commitments and shares are collected. A Shamir group that is exactly one holder short never makes a verifying signature.", "quantifier": "all dealings, subsets of holders, nonces, orders of aggregation, histories of the builder, ledger states and fee parameters", "why_tests_cant": "composes random dealing, interpolation modulo the group order, Ed25519 verification, the fee fixpoint and the ledger rules", "anchors": ["src/tss.cpp: Dealer, StatefulSigner, Signer", "src/shelley/transaction.cpp: TransactionBuilder::balance, getID, sign", "include/cardano/transaction.hpp: getTransaction"]}
{"id": "C97", "title": "An accepted transaction does on the ledger what was asked", "statement": "A transaction prepared with the builder (inputs, withdrawals of whole reward balances, certificates allowed by the state of stake keys and pools, payments, change address, with enough funds, counted right by the builder as in C91) and signed with the right keys is applied by the network, and afterwards: at the id shown by the builder every payment asked for is an unspent output at its own position, followed at most by the change; the inputs are spent; no other output has changed; what went in equals payments, change, fee and deposits; every stake key is delegated to the pool named last for it (none after a deregistration), reward accounts are opened and closed as asked, new and withdrawn accounts have balance 0 and others are unchanged; pools are registered with their first registration, re-registrations wait for the next epoch, and retirements are as announced last. The change and the payments can be spent next with their id, position and amount.", "quantifier": "all histories of the builder, ledger states, protocol parameters and keys", "why_tests_cant": "quantifies over ledger states and histories and composes the fee fixpoint, serialisation, hashing and ledger rules", "anchors": ["src/shelley/transaction.cpp: TransactionBuilder (all members)", "include/cardano/transaction.hpp: getID, getTransaction", "src/shelley/ledger.cpp: TransactionBody::serialize, Certificate"]}
{"id": "C98", "title": "The whole life of a KES key object", "statement": "Generate a sum-composition key (depth at least 1) and make any sequence of calls of update, sign, signCompact, period, publicKey, bytes on the object, catching exceptions. Until drop() is called, each call gets the reply its period calls for - the period is the number of update calls made so far, at most the last one: signatures and compact signatures verify in that period under the public key from generation, update throws only in the last period and then changes nothing, period and public key are right. After drop() the bytes are all zero; everything the object answers later is the same as for any other key dropped in the same period; and no signature it still makes, in whatever state, verifies under the public key for any period (unless a hash collision is exhibited or a subtree's public key is the all-zero string).", "quantifier": "all seeds, depths from 1 to 31, messages and sequences of calls before and after drop()", "why_tests_cant": "call sequences are unbounded and the object keeps answering after drop()", "anchors": ["include/cardano/kes.hpp: SumKesPrivateKey keygen, update, sign, signCompact, period, publicKey, bytes, drop", "include/cardano/kes.hpp: SumKesSignature::verify, SumKesCompactSignature::verify"]}
{"id": "C99", "title": "A ledger transaction is read and written for what it means", "statement": "The CDDL of the Shelley ledger gives every byte string that is a transaction exactly one meaning. Reading such bytes into a new object - whatever integer widths, key order or set order they use - succeeds exactly when no certificate is a genesis key delegation and no pool margin has denominator 0, and then gives the meaning without update, scripts, bootstrap witnesses, metadata, and without relays and metadata of pool registrations; nothing else is lost or changed. The bytes written for an object mean a transaction exactly when every certificate conforms (pool registrations with owners, well-formed relays and metadata; no credential twice in a reward movement), no script has an empty node and there is no metadata; they then mean that object without update, bootstrap witnesses and IPv6 addresses of relays; so they mean the object itself exactly when it has none of these.", "quantifier": "all byte strings whose first item is a transaction of the Shelley CDDL, and all objects the types can hold", "why_tests_cant": "quantifies over all encodings of all transactions, independent of the library's own writer (a round trip through the same writer and reader would hide a common error)", "anchors": ["src/ledger.cpp: Transaction, TransactionBody, TransactionWitnessSet, Certificate, Relay, StakeCredential, MoveInstantaneousReward, MultisigScript serializer and deserializer", "include/cardano/ledger.hpp: the CDDL in the comments"]}
{"id": "C100", "title": "A Babbage transaction is written for what it means", "statement": "The CDDL of the Babbage ledger gives the bytes that Transaction::serialize writes for a Babbage object exactly one meaning: the object without certificates and script references, whatever follows the bytes. So they mean the object itself exactly when it has none of these, and after any calls on a new Babbage builder the bytes mean exactly the inputs, payments, withdrawals, fee and time to live asked for, with the witnesses made.", "quantifier": "all Babbage objects the types can hold, all histories of builder calls, all trailing bytes", "why_tests_cant": "quantifies over all objects and histories, against the CDDL rather than the library's own reader (there is none)", "anchors": ["src/babbage/ledger.cpp: Transaction, TransactionBody, TransactionOutput serializer", "src/babbage/transaction.cpp: TransactionBuilder"]}
{"id": "C101", "title": "The network accepts the bytes, not only the object", "statement": "A node that knows only the bytes (reads them as CBOR, takes them for a transaction of the CDDL, measures them, hashes the bytes of the body and applies the ledger rules) accepts what a Shelley builder serializes after any history of calls if and only if every pool registration in the history has owners, relays, metadata and only relays the CDDL allows and the library can write, and the transaction in memory obeys the rules. So the bytes of a carefully prepared, balanced and signed transaction are accepted.", "quantifier": "all histories of builder calls with arguments of their C++ types, all network states and parameters", "why_tests_cant": "quantifies over all histories and states, and ties the in-memory object to its bytes for every one of them", "anchors": ["include/cardano/transaction.hpp: TransactionBuilder", "src/shelley/transaction.cpp", "src/ledger.cpp: serializer", "include/cardano/serialization.hpp: serialize"]}
{"id": "C102", "title": "Several wallets can sign one transaction", "statement": "When the bytes of a prepared transaction go from wallet to wallet, each of which loads them with fromCBOR, signs with its keys and sends its bytes on, the last bytes are those that the first builder would have given after signing with all the keys; so the network accepts them. Bytes made by other software are loaded for what they mean, and the signatures already on them are kept and stay valid.", "quantifier": "all histories, all numbers of wallets and keys, all received bytes in every encoding", "why_tests_cant": "quantifies over all histories, chains of wallets and encodings", "anchors": ["src/shelley/transaction.cpp: TransactionBuilder::fromCBOR, sign, serialize", "src/ledger.cpp: Transaction serializer and deserializer"]}
{"id": "C103", "title": "The network accepts the bytes of a Babbage builder", "statement": "A node that knows only the bytes (reads them as CBOR, takes them for a Babbage transaction of the CDDL, measures the bytes of the transaction and of each output, hashes the bytes of the body and applies the ledger rules) accepts what a Babbage builder serializes after any history of calls if and only if the transaction in memory obeys the rules. So the bytes of the two-pass recipe are accepted.", "quantifier": "all histories of builder calls with arguments of their C++ types, all network states and parameters", "why_tests_cant": "quantifies over all histories and states, and ties the in-memory object to its bytes for every one of them", "anchors": ["include/cardano/transaction.hpp: babbage::TransactionBuilder", "src/babbage/transaction.cpp", "src/ledger.cpp: babbage serializers", "include/cardano/serialization.hpp: serialize"]}
{"id": "C104", "title": "Money sent to the text of an address arrives at its owner", "statement": "A text can be paid to (an address class reads it and addOutput takes the result) exactly when it names a base or enterprise address according to BIP-173 and CIP-19, and then only one. When a node takes the serialized bytes of a builder (it sees only the bytes), every payment to a text becomes, at the id the builder shows and at its position among the payments, an unspent output with the amount asked for and the address the text names: after any history of the Babbage builder, after any history of the Shelley builder without balance and fee calculation, and for a prepared, balanced and signed Shelley transaction as in C97. If the text is the one a wallet shows for its keys, that wallet's payment key is the one that can spend the output. Texts of another network are rejected by the node.", "quantifier": "all texts, amounts, histories of builder calls, network states and keys", "why_tests_cant": "quantifies over all texts and histories, and ties the text, the bytes and the ledger together", "anchors": ["include/cardano/address.hpp: BaseAddress, EnterpriseAddress", "src/address.cpp", "src/encodings.cpp: BECH32", "include/cardano/transaction.hpp: TransactionBuilder", "src/shelley/transaction.cpp", "src/babbage/transaction.cpp", "src/ledger.cpp"]}
{"id": "C105", "title": "The example program can be killed at any moment and run again", "statement": "Whenever examples/generate_stake_pool_keys is killed, whatever the directory held before, the files it had finished are complete, the one it was writing is as before or holds an initial part of its new content, and every other file is as before; all these directories can occur. So pool.cert is never on the disk without the complete cold and KES keys of the same run, and running the program again with the same keys gives the directory the first run would have given. A JSON reader that opens one of the files finds what was there before, the complete envelope of this run, or rejects the file. Over the files of an earlier run for another pool a killed run can leave a mixture that no run makes, and there is a moment at which the old cold key is gone and the new one not yet written.", "quantifier": "all moments at which the process may be killed, all earlier directory contents, phrases and random numbers", "why_tests_cant": "quantifies over all crash points and earlier directories", "anchors": ["examples/generate_stake_pool_keys/main.cpp", "src/util.cpp: writeEnvelopeTextFile", "src/stake_pool.cpp: saveToFile"]}
{"id": "C106", "title": "Key files are JSON documents", "statement": "writeEnvelopeTextFile writes a JSON text (RFC 8259) for the object with the members type, description and cborHex and exactly the given strings if and only if none of them contains a quotation mark, a backslash or a control character (nothing is escaped), and then the text has no other meaning. So every file written by the save functions of the library (keys, operational certificate, counter, registration and retirement) is an ASCII JSON text for its envelope, and a save interrupted at any moment leaves what was there before, the whole document, or something no JSON reader accepts.", "quantifier": "all strings, keys, certificates, counters and interruption points", "why_tests_cant": "quantifies over all strings and crash points, and over every reading a JSON grammar allows", "anchors": ["src/util.cpp: writeEnvelopeTextFile", "src/stake_pool.cpp: saveToFile"]}
{"id": "C107", "title": "A genesis file is read for what its text says", "statement": "GenesisParameters::fromFile, given the bytes of a file, reads exactly the files that begin with a JSON object (RFC 8259, after an optional byte order mark and white space) whose meaning - whole numbers of 64 bits, doubles, UTF-8 strings, the last of several members with one name - is a readable document of the era, and gives the configuration of that document. White space, escapes, the order of members and bytes after the object do not matter; a file that breaks off before the end of its object is always refused with an exception; a configuration written as any JSON text of its to_json is read back (Byron, Alonzo, Conway).", "quantifier": "all byte strings and all four eras; all cut-off points; all layouts", "why_tests_cant": "quantifies over all byte strings, over every text of a value and over every point at which a file may be cut off", "anchors": ["src/byron/genesis.cpp: GenesisParameters::fromFile", "src/shelley/genesis.cpp: GenesisParameters::fromFile", "src/alonzo/genesis.cpp: GenesisParameters::fromFile", "src/conway/genesis.cpp: GenesisParameters::fromFile"]}
{"id": "C108", "title": "Inputs, withdrawals and pool owners are written in order", "statement": "In the bytes of every transaction made with either builder, and of every transaction read and written again, the inputs stand in strictly increasing order of transaction id (bytes compared as unsigned numbers, left to right) and index, the withdrawals in strictly increasing order of the address bytes, and the owners of a pool registration in strictly increasing order: each once, whatever the order and number of the calls. So the position of an input in the bytes, to which scripts and other tools refer, depends only on the set of inputs.", "quantifier": "all histories of builder calls, all byte strings read, all histories of pool registration calls", "why_tests_cant": "quantifies over all histories and all sets", "anchors": ["src/shelley/ledger.cpp: TransactionBody::serializer", "include/cardano/ledger.hpp: TransactionInput::operator<", "src/ledger.cpp: TransactionBody::serializer", "src/stake_pool.cpp: RegistrationCertificateManager::addOwner"]}
{"id": "C109", "title": "The bytes of built transactions are deterministic CBOR", "statement": "After any history of calls on either transaction builder, the bytes of the transaction are one CBOR item in the core deterministic encoding of RFC 8949 section 4.2.1: every length and number in its shortest form, no indefinite lengths, map keys in bytewise order without duplicates. Such bytes are determined by the contents, so a hardware wallet or another signer that rebuilds them from the contents gets the same bytes and the same transaction id.", "quantifier": "all histories of builder calls with arguments of the sizes the API prescribes", "why_tests_cant": "quantifies over all histories and all contents", "anchors": ["src/shelley/ledger.cpp: TransactionBody::serializer", "src/ledger.cpp: TransactionBody::serializer", "src/shelley/transaction.cpp: TransactionBuilder", "src/babbage/transaction.cpp: TransactionBuilder"]}
{"id": "C110", "title": "Byron addresses are written in one way", "statement": "The bytes of every Byron address, and the payload inside them, are deterministic CBOR (RFC 8949 section 4.2.1): shortest heads, definite lengths, attributes in order, absent ones left out. So one address has one text, and two addresses (of keys or scripts) with the same bytes are equal; comparing texts or bytes compares addresses.", "quantifier": "all Byron addresses with a 28-byte root, any path ciphertext and any protocol magic", "why_tests_cant": "quantifies over all addresses", "anchors": ["src/address.cpp: ByronAddress::toCBOR, ByronAddress::toBase58"]}
{"id": "C111", "title": "Any bytes are read or refused as a Byron address", "statement": "ByronAddress::fromCBOR and fromBase58, given any bytes or text whatever (as typed or received by a wallet), either return an address or throw std::invalid_argument; exactly which inputs are read is determined by their CBOR shape and checksum, and none makes the library leave defined behaviour.", "quantifier": "all byte strings, all Base58 texts", "why_tests_cant": "quantifies over all inputs, in particular malformed ones", "anchors": ["src/address.cpp: ByronAddress::fromCBOR, ByronAddress::fromBase58, cbor_decode, uintToType"]}
{"id": "C112", "title": "A Byron address has one text", "statement": "If fromCBOR or fromBase58 accepts bytes or a text as an address, writing that address again gives the same bytes and text, so users and programs may compare texts.", "quantifier": "all byte strings and texts that are accepted", "why_tests_cant": "quantifies over all accepted inputs", "anchors": ["src/address.cpp: ByronAddress::fromCBOR, ByronAddress::fromBase58, ByronAddress::toCBOR, ByronAddress::toBase58"]}
