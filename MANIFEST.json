{
 "claims": [
  {
   "property": "C01",
   "status": "proved",
   "theorems": [
    "Cardano.Hex.C01_hex_roundtrip"
   ],
   "note": ""
  },
  {
   "property": "C02",
   "status": "proved",
   "theorems": [
    "Cardano.Hex.C02_hex_decode_exact"
   ],
   "note": ""
  },
  {
   "property": "C03",
   "status": "proved",
   "theorems": [
    "Cardano.Bech32.C03_bech32_roundtrip",
    "Cardano.C03_bech32_hex"
   ],
   "note": ""
  },
  {
   "property": "C04",
   "status": "proved",
   "theorems": [
    "Cardano.Bech32.C04_bech32_canonical",
    "Cardano.Bech32.C04_bech32_injective"
   ],
   "note": ""
  },
  {
   "property": "C05",
   "status": "proved",
   "theorems": [
    "Cardano.Bech32.C05_bech32_burst_detected"
   ],
   "note": ""
  },
  {
   "property": "C06",
   "status": "partial",
   "theorems": [
    "Cardano.Bech32.C06_bech32_decode_ub_witness",
    "Cardano.Bech32.C06_bech32_defined_partial",
    "Cardano.Bech32.C06_bech32_ub_iff"
   ],
   "note": "False of the code: a byte >= 128 in the data part is used as an index into a 128-entry table. The strings for which this happens are characterised exactly; all others return or throw."
  },
  {
   "property": "C07",
   "status": "partial",
   "theorems": [
    "Cardano.Base58.C07_base58_roundtrip_partial",
    "Cardano.Base58.C07_base58_counterexamples",
    "Cardano.Base58.C07_base58_zeros",
    "Cardano.Base58.C07_base58_text_roundtrip",
    "Cardano.C07_base58_hex_partial",
    "Cardano.C07_base58_hex_counterexample"
   ],
   "note": "False of the code at the empty and all-zero strings (characterised exactly); proved for all others, both directions."
  },
  {
   "property": "C08",
   "status": "proved",
   "theorems": [
    "Cardano.Base58.C08_base58_encode_in_bounds"
   ],
   "note": ""
  },
  {
   "property": "C09",
   "status": "partial",
   "theorems": [
    "Cardano.Base58.C09_base58_accepts_invalid",
    "Cardano.Base58.C09_base58_rejects_nonascii_partial",
    "Cardano.Base58.C09_base58_decode_defined",
    "Cardano.Base58.C09_base58_accepts_iff"
   ],
   "note": "False of the code: ASCII characters outside the alphabet are accepted. Proved: exactly the ASCII strings are accepted, bytes >= 128 throw, no undefined behaviour."
  },
  {
   "property": "C10",
   "status": "proved",
   "theorems": [
    "Cardano.Address.C10_base_roundtrip",
    "Cardano.Address.C10_enterprise_roundtrip",
    "Cardano.Address.C10_rewards_roundtrip",
    "Cardano.Address.C10_objects_distinct"
   ],
   "note": ""
  },
  {
   "property": "C11",
   "status": "proved",
   "theorems": [
    "Cardano.Address.C11_classes_exclusive"
   ],
   "note": ""
  },
  {
   "property": "C12",
   "status": "partial",
   "theorems": [
    "Cardano.Address.C12_prefix_not_checked",
    "Cardano.Address.C12_reencode_partial",
    "Cardano.Address.C12_reencode_iff"
   ],
   "note": "False of the code: prefix and network nibble are not compared. Proved: a text re-encodes to itself iff they agree."
  },
  {
   "property": "C13",
   "status": "proved",
   "theorems": [
    "Cardano.Address.C13_pointer_unique"
   ],
   "note": ""
  },
  {
   "property": "C14",
   "status": "partial",
   "theorems": [
    "Cardano.Byron.C14_roundtrip_partial",
    "Cardano.Byron.C14_redeem_becomes_script",
    "Cardano.Byron.C14_wire_format"
   ],
   "note": "Proved for pubkey and script addresses, CBOR and Base58; proved false for redeem addresses (typeToUint writes 1)."
  },
  {
   "property": "C15",
   "status": "partial",
   "theorems": [
    "Cardano.Byron.C15_checksum_checked_partial",
    "Cardano.Byron.C15_burst_rejected",
    "Cardano.Byron.C15_crc32_standard",
    "Cardano.Byron.C15_checksum_truncated",
    "Cardano.Byron.C15_flips_rejected",
    "Cardano.Byron.C15_not_cbor"
   ],
   "note": "Burst detection, the check itself and agreement with the published CRC-32 proved; the stored checksum is compared modulo 2^32 only (proved)."
  },
  {
   "property": "C16",
   "status": "proved",
   "theorems": [
    "Cardano.Util.C16_pack_unpack"
   ],
   "note": "For every width, not only 4 and 8."
  },
  {
   "property": "C17",
   "status": "partial",
   "theorems": [
    "Cardano.Util.C17_denominator_bound_partial",
    "Cardano.Util.C17_exact_partial",
    "Cardano.Util.C17_tiny_input_undefined",
    "Cardano.Util.C17_closed_form",
    "Cardano.Util.C17_nan_diverges",
    "Cardano.Util.C17_inf_undefined",
    "Cardano.Util.C17_approximation",
    "Cardano.Util.C17_wrapped_counter",
    "Cardano.Util.C17_small_input_sign",
    "Cardano.Util.C17_exact_iff",
    "Cardano.Util.C17_exact_false"
   ],
   "note": "For every finite double m/2^e with e<=62: lowest terms, denominator bound, distance at most 1/max_denominator, unit interval kept. Exactness below the bound holds iff Euclid's algorithm needs at most 64 divisions (always for denominators up to 2^44; false for a double with denominator 2^53). e=63 gives a wrong sign or 0 (C17_wrapped_counter), e>=64 divides by zero, NaN never returns, infinity is undefined: all proved."
  },
  {
   "property": "C18",
   "status": "partial",
   "theorems": [
    "Cardano.Util.C18_envelope_partial",
    "Cardano.Util.C18_crash_loses_key",
    "Cardano.Util.C18_silent_truncation",
    "Cardano.Util.C18_fields_recoverable",
    "Cardano.Util.C18_device_full"
   ],
   "note": "False of the code: truncate-then-write, and errors at close are swallowed. Proved: every crash content is old or a prefix of the document; complete when the device has room; the exact content on any device is C18_device_full."
  },
  {
   "property": "C19",
   "status": "proved",
   "theorems": [
    "Cardano.Mnemonic.C19_generate_isPhrase",
    "Cardano.Mnemonic.C19_toEntropy_spec",
    "Cardano.Mnemonic.C19_entropy_roundtrip",
    "Cardano.Mnemonic.C19_unmasked_index"
   ],
   "note": "SHA-256 is a parameter (any 32-byte function); the RNG output is universally quantified. Indices >= 2048, which only the (words, indexes) constructors admit, are not masked (proved by witness)."
  },
  {
   "property": "C20",
   "status": "proved",
   "theorems": [
    "Cardano.Mnemonic.C20_verifyChecksum_iff",
    "Cardano.Mnemonic.C20_generated_verifies",
    "Cardano.Mnemonic.C20_verified_phrase_unique"
   ],
   "note": "For all phrases with dictionary indices."
  },
  {
   "property": "C21",
   "status": "proved",
   "theorems": [
    "Cardano.Mnemonic.C21_ofWords_ok_iff",
    "Cardano.Mnemonic.C21_ofWords_rejects",
    "Cardano.Mnemonic.C21_ofString_ok_iff",
    "Cardano.Mnemonic.C21_ofString_defined",
    "Cardano.Mnemonic.C21_ofString_indexes",
    "Cardano.Mnemonic.C21_ofString_inj",
    "Cardano.Mnemonic.C21_generate_write_read",
    "Cardano.Mnemonic.C21_generate_rejects",
    "Cardano.Mnemonic.C21_ofWordsIndexes_iff",
    "Cardano.Mnemonic.C21_dictionary_of_language"
   ],
   "note": "All ten dictionaries of the header are in the model (2048 distinct words without spaces, checked by the kernel)."
  },
  {
   "property": "C22",
   "status": "proved",
   "theorems": [
    "Cardano.Kes.C22_signatures_verify",
    "Cardano.Pool.C22_pool_kes",
    "Cardano.Kes.C22_ed25519",
    "Cardano.Kes.C22_edwards25519"
   ],
   "note": "Every depth < 32 (library: <= 7), every hash/signature implementation of the interface."
  },
  {
   "property": "C23",
   "status": "proved",
   "theorems": [
    "Cardano.Kes.C23_public_key_constant"
   ],
   "note": ""
  },
  {
   "property": "C24",
   "status": "proved",
   "theorems": [
    "Cardano.Kes.C24_exact_lifetime"
   ],
   "note": ""
  },
  {
   "property": "C25",
   "status": "proved",
   "theorems": [
    "Cardano.Kes.C25_forward_secure"
   ],
   "note": "Symbolic: each 32-byte cell is zero, a public key, or the seed of a node that is not an ancestor of a past leaf."
  },
  {
   "property": "C26",
   "status": "partial",
   "theorems": [
    "Cardano.Kes.C26_compact_verify_partial",
    "Cardano.Kes.C26_depth0_undefined"
   ],
   "note": "Proved for depth >= 1; at depth 0 the code is proved to leave defined behaviour."
  },
  {
   "property": "C27",
   "status": "partial",
   "theorems": [
    "Cardano.Kes.C27_restored_partial",
    "Cardano.Kes.C27_restored_without_period",
    "Cardano.Kes.C27_restored_compact_broken"
   ],
   "note": "False for compact signatures (member period_ is not restored); everything else proved."
  },
  {
   "property": "C28",
   "status": "partial",
   "theorems": [
    "Cardano.Kes.C28_one_period_partial",
    "Cardano.Kes.C28_no_range_check",
    "Cardano.Kes.C28_exact",
    "Cardano.Kes.C28_compact"
   ],
   "note": "Exact for all periods (C28_exact): accepted for t' iff t' = t, or t is the last period and t' any later number; so the claim holds for t' < 2^depth and is false for t' >= 2^depth (no range check). Compact signatures: C28_compact, with the collision named."
  },
  {
   "property": "C29",
   "status": "proved",
   "theorems": [
    "Cardano.Bip32.C29_public_private_agree",
    "Cardano.Bip32.C29_agree_bounded",
    "Cardano.Bip32.C29_failures",
    "Cardano.Bip32.C29_path_bounded"
   ],
   "note": "Over every commutative group with a base point of order exactly L and an invertible 32-byte encoding, and every hash/HMAC/PBKDF2/ChaCha function with the right output lengths. The V2 overflow case and the two failure cases (parent or added scalar a multiple of L) are characterised exactly."
  },
  {
   "property": "C30",
   "status": "proved",
   "theorems": [
    "Cardano.Bip32.C30_fromSeed",
    "Cardano.Bip32.C30_fromMnemonic",
    "Cardano.Bip32.C30_generate",
    "Cardano.Bip32.C30_fromMnemonicByron",
    "Cardano.Bip32.C30_phrase_to_key",
    "Cardano.Bip32.C30_icarus_standard",
    "Cardano.Bip32.C30_generate_standard",
    "Cardano.Bip32.C30_fromSeed_standard",
    "Cardano.Bip32.C30_byron_standard"
   ],
   "note": "Over every commutative group with a base point of order exactly L and an invertible 32-byte encoding, and every hash/HMAC/PBKDF2/ChaCha function with the right output lengths. Besides the clamping, the keys are shown to be the CIP-3 master keys."
  },
  {
   "property": "C31",
   "status": "proved",
   "theorems": [
    "Cardano.Bip32.C31_hardened",
    "Cardano.Bip32.C31_hardenIndex",
    "Cardano.Bip32.C31_succeeds_iff"
   ],
   "note": "Below 2^31 public derivation can only fail for a Z that is a multiple of L or an undecodable point (C29_failures)."
  },
  {
   "property": "C32",
   "status": "proved",
   "theorems": [
    "Cardano.Bip32.C32_decrypt_encrypt",
    "Cardano.Bip32.C32_wrong_password",
    "Cardano.Bip32.C32_format"
   ],
   "note": "PBKDF2 and ChaCha20 are parameters."
  },
  {
   "property": "C33",
   "status": "proved",
   "theorems": [
    "Cardano.Bip32.C33_sign_verifies",
    "Cardano.Bip32.C33_sign_total",
    "Cardano.Bip32.C33_sign_standard"
   ],
   "note": "Over every group/encoding and hash. Verification is libsodium's crypto_sign_verify_detached as written in Spec/Ed25519."
  },
  {
   "property": "C34",
   "status": "proved",
   "theorems": [
    "Cardano.Bip32.C34_v2_is_paper_child",
    "Cardano.Bip32.C34_v1_is_historical_child",
    "Cardano.Bip32.C34_v2_low_bits",
    "Cardano.Bip32.C34_index_injective",
    "Cardano.Bip32.C34_index_endian",
    "Cardano.Bip32.C34_mac_inputs_distinct",
    "Cardano.Bip32.C34_v1_low_bits_lost"
   ],
   "note": "Over every commutative group with a base point of order exactly L and an invertible 32-byte encoding, and every hash/HMAC/PBKDF2/ChaCha function with the right output lengths. V1 children lose the low bits (reduction modulo the odd order), proved by witness."
  },
  {
   "property": "C35",
   "status": "proved",
   "theorems": [
    "Cardano.Tss.C35_reconstruct",
    "Cardano.Tss.C35_too_few",
    "Cardano.Tss.C35_conflicting_shares",
    "Cardano.Tss.C35_dealer",
    "Cardano.Tss.C35_same_key",
    "Cardano.Tss.C35_public_keys_only"
   ],
   "note": "Over every commutative group with a base point of order exactly L (proved prime by a Pratt certificate) and every hash with the right output length; randomness is an argument. The reconstructed key has the root scalar and public key; the extension half and chain code are re-derived, not the root's."
  },
  {
   "property": "C36",
   "status": "partial",
   "theorems": [
    "Cardano.Tss.C36_any_secret_possible",
    "Cardano.Tss.C36_nearly_perfect_partial",
    "Cardano.Tss.C36_single_share_excludes_its_value",
    "Cardano.Tss.C36_one_short_iff",
    "Cardano.Tss.C36_two_short"
   ],
   "note": "Over every commutative group with a base point of order exactly L (proved prime by a Pratt certificate) and every hash with the right output length; randomness is an argument. The evaluation itself is perfectly hiding (C36_any_secret_possible). The dealer rejects zero coefficients, so the full claim is false: up to t-1 secrets are excluded; shown by C36_single_share_excludes_its_value. Exact: with t-1 shares precisely the scalars for which the interpolating polynomial has a zero coefficient are excluded (C36_one_short_iff); with at most t-2 and at most 7 shares nothing is excluded (C36_two_short)."
  },
  {
   "property": "C37",
   "status": "partial",
   "theorems": [
    "Cardano.Tss.C37_direct_sum",
    "Cardano.Tss.C37_direct_public_key_partial",
    "Cardano.Tss.C37_single_share_wrong_key",
    "Cardano.Tss.C37_direct_total",
    "Cardano.Tss.C37_direct_recombine",
    "Cardano.Tss.C37_direct_recombine_public",
    "Cardano.Tss.C37_splitSeed",
    "Cardano.Tss.C37_dealer",
    "Cardano.Tss.C37_dealt_chain_code",
    "Cardano.Tss.C37_composite_chain_code",
    "Cardano.Tss.C37_combined_is_dealt",
    "Cardano.Tss.C37_order_matters",
    "Cardano.Tss.C37_composite_signing_key"
   ],
   "note": "Over every commutative group with a base point of order exactly L (proved prime by a Pratt certificate) and every hash with the right output length; randomness is an argument. The shares always add up. The returned key is the root's for n >= 2; for n = 1 it is [s+1]B (proved), so the full claim is false there. The chain code of dealt and recombined keys is the SHA-256 of the share public keys in the given order, so order matters (proved)."
  },
  {
   "property": "C38",
   "status": "partial",
   "theorems": [
    "Cardano.Tss.C38_signature_verifies",
    "Cardano.Tss.C38_stateful",
    "Cardano.Tss.C38_shamir",
    "Cardano.Tss.C38_direct_partial",
    "Cardano.Tss.C38_direct_single_fails",
    "Cardano.Tss.C38_commitment",
    "Cardano.Tss.C38_commitmentShare",
    "Cardano.Tss.C38_no_coefficient",
    "Cardano.Tss.C38_coefficient_at_signing",
    "Cardano.Tss.C38_verifies_iff",
    "Cardano.Tss.C38_stateful_iff",
    "Cardano.Tss.C38_one_short"
   ],
   "note": "Over every commutative group with a base point of order exactly L (proved prime by a Pratt certificate) and every hash with the right output length; randomness is an argument. Full for Shamir and for Direct with n >= 2, provided the nonces do not sum to 0 modulo L; for Direct n = 1 the dealer's key is wrong and the signature fails (proved)."
  },
  {
   "property": "C39",
   "status": "proved",
   "theorems": [
    "Cardano.Tss.C39_computeLagrange"
   ],
   "note": "Interpolation is stated against all polynomials of degree below the number of ids (Spec/Tss)."
  },
  {
   "property": "C40",
   "status": "partial",
   "theorems": [
    "Cardano.Tss.C40_dealer1",
    "Cardano.Tss.C40_dealer2",
    "Cardano.Tss.C40_dealer3",
    "Cardano.Tss.C40_direct_ids",
    "Cardano.Tss.C40_shamir_ids_partial",
    "Cardano.Tss.C40_shamir_rejects",
    "Cardano.Tss.C40_share_format"
   ],
   "note": "Parameter checks are exact. With Shamir and n = 2^32-1 the loop bound n+1 wraps and no share is dealt (proved), so 'exactly n shares' is false there."
  },
  {
   "property": "C41",
   "status": "partial",
   "theorems": [
    "Cardano.Tss.C41_aggregateSignatures_partial",
    "Cardano.Tss.C41_aggregate_order",
    "Cardano.Tss.C41_empty_undefined",
    "Cardano.Tss.C41_aggregateCommitments",
    "Cardano.Tss.C41_single_commitment"
   ],
   "note": "Exact on every non-empty list; on the empty list both functions read element 0 of an empty vector (undefined)."
  },
  {
   "property": "C42",
   "status": "partial",
   "theorems": [
    "Cardano.Tss.C42_history_partial",
    "Cardano.Tss.C42_sign_before_commit_leaks",
    "Cardano.Tss.C42_nonce_reuse_leaks"
   ],
   "note": "Message, group key and share are fixed per signer and the nonce is that of the latest commitment after every call history; but the object does not enforce single use: two theorems compute the key share from one share signed before committing, or from two shares with different aggregated commitments."
  },
  {
   "property": "C43",
   "status": "partial",
   "theorems": [
    "Cardano.Ledger.C43_input",
    "Cardano.Ledger.C43_output",
    "Cardano.Ledger.C43_body_iff_partial",
    "Cardano.Ledger.C43_update_dropped",
    "Cardano.Ledger.C43_witness_set",
    "Cardano.Ledger.C43_witness_set_iff_partial",
    "Cardano.Ledger.C43_transaction_iff_partial",
    "Cardano.Ledger.C43_old_metadata_kept",
    "Cardano.Ledger.Babbage.C43_babbage_not_readable"
   ],
   "note": "Round trip proved exactly characterised: it holds for a representable body iff every certificate is preserved and there is no update; witness sets iff there are only key witnesses; transactions iff additionally no metadata. The full statement is false of the code for the rest (proved)."
  },
  {
   "property": "C44",
   "status": "partial",
   "theorems": [
    "Cardano.Ledger.C44_rational",
    "Cardano.Ledger.C44_metadata",
    "Cardano.Ledger.C44_credential",
    "Cardano.Ledger.C44_mir",
    "Cardano.Ledger.C44_roundtrip_iff_partial",
    "Cardano.Ledger.C44_genesis_delegation_ub",
    "Cardano.Ledger.C44_pool_registration_lossy",
    "Cardano.Ledger.C44_ipv6_relay_unserializable"
   ],
   "note": "Round trip iff the certificate is not a genesis key delegation and, for a pool registration, has no relays and no metadata; genesis key delegation exhibits UB when read back (proved)."
  },
  {
   "property": "C45",
   "status": "partial",
   "theorems": [
    "Cardano.Ledger.C45_roundtrip_iff_partial",
    "Cardano.Ledger.C45_ipv6_only_throws",
    "Cardano.Ledger.C45_ipv6_dropped",
    "Cardano.Ledger.C45_no_address",
    "Cardano.Ledger.C45_reads_ledger_relays"
   ],
   "note": "Exact characterisation of the relays that round trip; relays with an IPv6 address do not (proved)."
  },
  {
   "property": "C46",
   "status": "partial",
   "theorems": [
    "Cardano.Ledger.C46_roundtrip_iff_partial",
    "Cardano.Ledger.C46_otherwise_throws",
    "Cardano.Ledger.C46_nofk_throws"
   ],
   "note": "Exact characterisation by induction on scripts of any depth; n-of-k scripts cannot be read back (proved)."
  },
  {
   "property": "C47",
   "status": "proved",
   "theorems": [
    "Cardano.Cbor.C47_unique_decodable",
    "Cardano.Cbor.C47_shortest_header",
    "Cardano.Cbor.C47_parse_iff",
    "Cardano.Cbor.C47_prefix_free",
    "Cardano.Cbor.C47_encodes_shortest"
   ],
   "note": "cppbor itself is a dependency and is modelled from its interface and RFC 8949."
  },
  {
   "property": "C48",
   "status": "proved",
   "theorems": [
    "Cardano.TxBuilder.C48_body_determined",
    "Cardano.TxBuilder.C48_permutation",
    "Cardano.TxBuilder.C48_sign_keeps_id"
   ],
   "note": "Any permutation of addInput/addWithdrawal calls (distinct withdrawal addresses) anywhere in any history gives the identical builder; the body is a function of the sets and sequences asked for. For repeated addresses the last amount wins (example), so distinctness is needed."
  },
  {
   "property": "C49",
   "status": "partial",
   "theorems": [
    "Cardano.TxBuilder.C49_witnesses_valid_partial",
    "Cardano.TxBuilder.C49_certificate_keeps_stale_witnesses",
    "Cardano.TxBuilder.C49_exact"
   ],
   "note": "Proved for every history in which no certificate is added between a sign and the next call that clears the witnesses; the certificate calls do not clear them, and the full claim is refuted (stale witnesses over a body with other bytes). C49_exact: after every history, where each key witness comes from, and that the bytes it was made over are those of the current body exactly when no certificate was added since."
  },
  {
   "property": "C50",
   "status": "proved",
   "theorems": [
    "Cardano.TxBuilder.C50_one_witness_per_key",
    "Cardano.TxBuilder.C50_fresh",
    "Cardano.TxBuilder.C50_sign_replaces"
   ],
   "note": "Invariant over all histories."
  },
  {
   "property": "C51",
   "status": "partial",
   "theorems": [
    "Cardano.TxBuilder.C51_totals",
    "Cardano.TxBuilder.C51_partial",
    "Cardano.TxBuilder.C51_duplicate_input",
    "Cardano.TxBuilder.C51_repeated_withdrawal",
    "Cardano.TxBuilder.C51_fromCBOR",
    "Cardano.TxBuilder.C51_iff"
   ],
   "note": "Exact value of the totals after every history; equal to the body's sums if no input or withdrawal address is repeated. False otherwise, and false for builders made from CBOR (refutations proved)."
  },
  {
   "property": "C52",
   "status": "partial",
   "theorems": [
    "Cardano.TxBuilder.C52_balanced",
    "Cardano.TxBuilder.C52_history_partial",
    "Cardano.TxBuilder.C52_no_deregistration",
    "Cardano.TxBuilder.C52_refunds_ignored",
    "Cardano.TxBuilder.C52_duplicate_input",
    "Cardano.TxBuilder.C52_iff"
   ],
   "note": "The builder's own totals balance exactly on success; the ledger's equation holds for histories without repeats and without deregistrations. Refunds are not counted and duplicate inputs are double counted: the full claim is false (refutations proved)."
  },
  {
   "property": "C53",
   "status": "proved",
   "theorems": [
    "Cardano.TxBuilder.C53_updateFee",
    "Cardano.TxBuilder.C53_balance"
   ],
   "note": "For non-negative fee parameters without 64-bit overflow; any number of witnesses up to the announced one."
  },
  {
   "property": "C54",
   "status": "partial",
   "theorems": [
    "Cardano.TxBuilder.C54_calculateFee_partial",
    "Cardano.TxBuilder.C54_updateFee",
    "Cardano.TxBuilder.C54_unique",
    "Cardano.TxBuilder.C54_negative_diverges",
    "Cardano.TxBuilder.C54_calculateFee_not_least",
    "Cardano.TxBuilder.C54_nearest"
   ],
   "note": "Termination within 12 rounds at a self-consistent fee; updateFee at the least one. calculateFee alone may return a larger fixed point when the fixed fee part is below 65536 (proved), and with negative coefficients the loop never ends (proved). C54_nearest: exactly which self-consistent fee calculateFee returns (the nearest to the carried fee, on the side the minimum fee lies)."
  },
  {
   "property": "C55",
   "status": "partial",
   "theorems": [
    "Cardano.TxBuilder.C55_partial",
    "Cardano.TxBuilder.C55_iff",
    "Cardano.TxBuilder.C55_insufficient_funds_alters_outputs",
    "Cardano.TxBuilder.C55_recipient_reduced",
    "Cardano.TxBuilder.C55_recipient_dropped"
   ],
   "note": "Holds exactly when the inputs cover the transaction as built (iff); otherwise a successful balance has altered the user's outputs: the full claim is false (refutations proved)."
  },
  {
   "property": "C56",
   "status": "proved",
   "theorems": [
    "Cardano.Pool.C56_generate",
    "Cardano.Pool.C56_generate_extended",
    "Cardano.Pool.C56_generate_extended_total",
    "Cardano.Pool.C56_message_binds",
    "Cardano.Pool.C56_verify_iff",
    "Cardano.Pool.C56_tamper",
    "Cardano.Pool.C56_resign",
    "Cardano.Pool.C56_extend_agrees",
    "Cardano.Pool.C56_wire_format",
    "Cardano.Pool.C56_bytes_bind",
    "Cardano.Pool.C56_bech32"
   ],
   "note": "Verification holds for every message whose nonce hash is not 0 mod the group order (C71). There is no deserializer in the library; \"round trip\" is stated as injectivity of the bytes plus the exact wire format."
  },
  {
   "property": "C57",
   "status": "partial",
   "theorems": [
    "Cardano.Pool.C57_issue_number",
    "Cardano.Pool.C57_issue_does_not_consume",
    "Cardano.Pool.C57_monotone_partial",
    "Cardano.Pool.C57_wraps",
    "Cardano.Pool.C57_reuse_iff",
    "Cardano.Pool.C57_monotone_iff"
   ],
   "note": "False of the code as stated: issuing does not consume the counter (C57_issue_does_not_consume). Proved: the number a certificate carries after any history, and strict growth when the caller increments between issues without wrap-around. C57_reuse_iff and C57_monotone_iff say exactly which histories reuse a number."
  },
  {
   "property": "C58",
   "status": "partial",
   "theorems": [
    "Cardano.Pool.C58_margin",
    "Cardano.Pool.C58_register",
    "Cardano.Pool.C58_history_partial",
    "Cardano.Pool.C58_cost_not_checked",
    "Cardano.Pool.C58_small_margin",
    "Cardano.Pool.C58_tiny_margin",
    "Cardano.Pool.C58_nan_margin",
    "Cardano.Pool.C58_short_metadata_hash",
    "Cardano.Pool.C58_ipv6_relay",
    "Cardano.Pool.C58_conforms",
    "Cardano.Pool.C58_wrapped_margin"
   ],
   "note": "False of the code as stated: setCost is unchecked, tiny margins give a numerator above the denominator, NaN never returns. Proved for all histories whose margins have at most 62 binary places: everything but the cost bound."
  },
  {
   "property": "C59",
   "status": "proved",
   "theorems": [
    "Cardano.Vrf.C59_fromSeed",
    "Cardano.Vrf.C59_isValid_iff",
    "Cardano.Vrf.C59_proof_verifies",
    "Cardano.Vrf.C59_sign",
    "Cardano.Vrf.C59_invalid_key",
    "Cardano.Vrf.C59_short_proof",
    "Cardano.Vrf.C59_long_proof",
    "Cardano.Vrf.C59_generate",
    "Cardano.Vrf.C59_edwards25519",
    "Cardano.Vrf.C59_proofToHash",
    "Cardano.Vrf.C59_verified_output",
    "Cardano.Vrf.C59_libsodium"
   ],
   "note": "Proved for every seed, message, curve and hash (libsodium's ECVRF as published is the specification of the external library). Beyond the claim: verifyProof reads 80 bytes whatever the span's length (C59_short_proof), and a key whose stored public half is wrong is not rejected by constructProof (C59_invalid_key)."
  },
  {
   "property": "C60",
   "status": "partial",
   "theorems": [
    "Cardano.Genesis.C60_roundtrip",
    "Cardano.Genesis.C60_shelley_partial",
    "Cardano.Genesis.C60_shelley_iff",
    "Cardano.Genesis.C60_format",
    "Cardano.Genesis.C60_initial_funds"
   ],
   "note": "True for Byron, Alonzo and Conway; false for Shelley: slot_length is read from securityParam (exact characterisation C60_shelley_iff). Level of JSON trees; texts are C107."
  },
  {
   "property": "C61",
   "status": "proved",
   "theorems": [
    "Cardano.Bech32.C61_bip173"
   ],
   "note": "GF(32) arithmetic and generator polynomial of the standard."
  },
  {
   "property": "C62",
   "status": "proved",
   "theorems": [
    "Cardano.Address.C62_cip19_format"
   ],
   "note": ""
  },
  {
   "property": "C63",
   "status": "proved",
   "theorems": [
    "Cardano.Kes.C63_accepted_signature_is_of_leaf",
    "Cardano.Kes.C63_size_checked"
   ],
   "note": "Reduction to a hash collision that the signature itself supplies (the two strings are named in the statement); Ed25519 unforgeability itself is not modelled."
  },
  {
   "property": "C64",
   "status": "partial",
   "theorems": [
    "Cardano.Ledger.C64_credential",
    "Cardano.Ledger.C64_metadata",
    "Cardano.Ledger.C64_relay",
    "Cardano.Ledger.C64_mir",
    "Cardano.Ledger.C64_certificate",
    "Cardano.Ledger.C64_script",
    "Cardano.Ledger.C64_body",
    "Cardano.Ledger.C64_witness_set",
    "Cardano.Ledger.C64_transaction_partial",
    "Cardano.Ledger.Babbage.C64_babbage_transaction",
    "Cardano.Ledger.Babbage.C64_script_ref"
   ],
   "note": "For each type the exact condition under which the bytes are an instance of the CDDL grammar; pool registrations written without relays/metadata are not (proved)."
  },
  {
   "property": "C65",
   "status": "partial",
   "theorems": [
    "Cardano.Ledger.C65_safe_types_partial",
    "Cardano.Ledger.C65_unsafe_types",
    "Cardano.Ledger.C65_ledger_certificates",
    "Cardano.Ledger.C65_ledger_scripts",
    "Cardano.Ledger.C65_certificate_iff",
    "Cardano.Ledger.C65_rewards_iff",
    "Cardano.Ledger.C65_script_iff",
    "Cardano.Ledger.C65_body_iff",
    "Cardano.Ledger.C65_witnesses_iff",
    "Cardano.Ledger.C65_transaction_iff"
   ],
   "note": "Proved for the types that check lengths; a counterexample byte string for the others; certificates and scripts in ledger format are read safely except genesis key delegations. For every compound type (certificates, instantaneous rewards, native scripts, bodies, witness sets, whole transactions) the inputs that are read and the inputs that are undefined behaviour are characterised exactly, in terms of the decoded CBOR items (Spec/LedgerFaults); so the claim fails exactly there."
  },
  {
   "property": "C66",
   "status": "partial",
   "theorems": [
    "Cardano.Ledger.C66_body_bytes_bind_partial",
    "Cardano.Ledger.C66_preserved_bodies",
    "Cardano.Ledger.C66_certificates_not_bound",
    "Cardano.Ledger.Babbage.C66_babbage_bytes_bind",
    "Cardano.Ledger.Babbage.C66_babbage_certificates_dropped"
   ],
   "note": "Everything but certificates is bound; certificates are bound when preserved; counterexamples for the rest."
  },
  {
   "property": "C67",
   "status": "proved",
   "theorems": [
    "Cardano.TxBuilder.C67_force_balances"
   ],
   "note": "Fee parameters of a network (fixed part >= 65536, fees < 2^31), amounts below 2^62."
  },
  {
   "property": "C68",
   "status": "proved",
   "theorems": [
    "Cardano.TxBuilder.C68_no_dust"
   ],
   "note": "Invariant of the balancing loop, for every outcome."
  },
  {
   "property": "C69",
   "status": "proved",
   "theorems": [
    "Cardano.TxBuilder.C69_no_waste"
   ],
   "note": "For non-negative fee parameters without 64-bit overflow."
  },
  {
   "property": "C70",
   "status": "partial",
   "theorems": [
    "Cardano.Ledger.C70_decoded_parts",
    "Cardano.Ledger.C70_decoded_body",
    "Cardano.Ledger.C70_decoded_transaction",
    "Cardano.Ledger.C70_stable_parts",
    "Cardano.Ledger.C70_stable_certificate",
    "Cardano.Ledger.C70_stable_body",
    "Cardano.Ledger.C70_stable_transaction_partial",
    "Cardano.Ledger.C70_stable_script",
    "Cardano.Ledger.C70_stable_relay",
    "Cardano.Ledger.C70_unknown_certificate_breaks"
   ],
   "note": "Well-formedness is proved for every type. Stability is proved exactly: it fails for transactions holding a certificate of an unknown type (>= 7, decoded to an empty object whose own bytes are unreadable), scripts with an unknown type, and relays other than IPv4/host names."
  },
  {
   "property": "C71",
   "status": "proved",
   "theorems": [
    "Cardano.Ed25519.C71_sign_verifies",
    "Cardano.Ed25519.C71_zero_nonce_rejected",
    "Cardano.Ed25519.C71_rfc8032",
    "Cardano.Ed25519.C71_extended_same",
    "Cardano.Ed25519.C71_generate",
    "Cardano.Ed25519.C71_verify_iff_edwards25519",
    "Cardano.Ed25519.C71_sign_verifies_edwards25519",
    "Cardano.Ed25519.C71_public_key_order"
   ],
   "note": "The only signatures that do not verify are those whose nonce hash is 0 modulo the group order, which libsodium rejects (C71_zero_nonce_rejected)."
  },
  {
   "property": "C72",
   "status": "partial",
   "theorems": [
    "Cardano.Pool.C72_content",
    "Cardano.Pool.C72_recoverable",
    "Cardano.Pool.C72_kes_partial",
    "Cardano.Pool.C72_extended_chain_code_lost",
    "Cardano.Pool.C72_kes_period_lost",
    "Cardano.Pool.C72_kes_zero_seed",
    "Cardano.Pool.C72_kes_reloaded_updates",
    "Cardano.Pool.C72_kes_every_period"
   ],
   "note": "True of cold, VRF and fresh KES keys; false of extended cold keys (chain code not saved) and of KES keys that were updated: the period is not saved. Exactly: a key saved in period t = 2^j*odd and rebuilt follows the original for 2^j - 1 updates, and the 2^j-th update succeeds and makes it sign with a seed grown from 32 zero bytes."
  },
  {
   "property": "C73",
   "status": "partial",
   "theorems": [
    "Cardano.Genesis.C73_faithful",
    "Cardano.Genesis.C73_shelley_partial",
    "Cardano.Genesis.C73_conversions",
    "Cardano.Genesis.C73_missing_key",
    "Cardano.Genesis.C73_shelley_slot_length",
    "Cardano.Genesis.C73_overflow",
    "Cardano.Genesis.C73_fraction",
    "Cardano.Genesis.C73_bad_file",
    "Cardano.Genesis.C73_exact"
   ],
   "note": "Documents of the exact format are read faithfully (except the Shelley slot length); numbers that do not fit are converted silently or give undefined behaviour, proved as findings. C73_exact: for each era, exactly which documents are read and which are undefined behaviour (a fraction that does not fit its type, met before anything missing or ill-typed); all others throw."
  },
  {
   "property": "C74",
   "status": "proved",
   "theorems": [
    "Cardano.Bip32.C74_path",
    "Cardano.Bip32.C74_path_unique",
    "Cardano.Pool.C74_from_root",
    "Cardano.Pool.C74_from_mnemonic"
   ],
   "note": "V2 derivation; path lengths below 2^26"
  },
  {
   "property": "C75",
   "status": "partial",
   "theorems": [
    "Cardano.Pool.C75_opcert_file",
    "Cardano.Pool.C75_counter_file",
    "Cardano.Pool.C75_retirement_bytes",
    "Cardano.Pool.C75_certificate_types_partial",
    "Cardano.Pool.C75_failure_keeps_file"
   ],
   "note": "false for the type field of registration and retirement files (C75_certificate_types_partial shows what is written); registration bytes: see C58_conforms"
  },
  {
   "property": "C76",
   "status": "proved",
   "theorems": [
    "Cardano.BabbageBuilder.C76_witnesses_valid",
    "Cardano.BabbageBuilder.C76_one_witness_per_key",
    "Cardano.BabbageBuilder.C76_signers",
    "Cardano.BabbageBuilder.C76_ed_signs"
   ],
   "note": "All histories on a new builder; no certificate calls exist in this class, so the exception of C49 does not arise."
  },
  {
   "property": "C77",
   "status": "proved",
   "theorems": [
    "Cardano.BabbageBuilder.C77_calculateFee",
    "Cardano.BabbageBuilder.C77_least",
    "Cardano.BabbageBuilder.C77_pays",
    "Cardano.BabbageBuilder.C77_calculate_then_sign",
    "Cardano.BabbageBuilder.C77_overflow_diverges",
    "Cardano.BabbageBuilder.C77_depends_on_fee",
    "Cardano.BabbageBuilder.C77_coefficients",
    "Cardano.BabbageBuilder.C77_default_coefficients"
   ],
   "note": "Self-consistency, storage and payment proved for every transaction, count, starting fee and coefficients whose fees fit 64 bits, with at most 12 rounds; the loss of signatures, the dependence on the starting fee and the divergence on overflow are theorems too."
  },
  {
   "property": "C78",
   "status": "proved",
   "theorems": [
    "Cardano.BabbageBuilder.C78_body",
    "Cardano.BabbageBuilder.C78_cddl",
    "Cardano.BabbageBuilder.C78_bytes_iff",
    "Cardano.BabbageBuilder.C78_balance_throws",
    "Cardano.BabbageBuilder.C78_from_transaction",
    "Cardano.BabbageBuilder.C78_permutation"
   ],
   "note": "balance always throws; addMint and fromCBOR have no definition in the repository."
  },
  {
   "property": "C79",
   "status": "proved",
   "theorems": [
    "Cardano.Byron.C79_path_format",
    "Cardano.Byron.C79_path_recoverable",
    "Cardano.Byron.C79_fromRootKey",
    "Cardano.Byron.C79_fromRootKey_fails",
    "Cardano.Byron.C79_path_bound",
    "Cardano.Byron.C79_text_roundtrip"
   ],
   "note": "Everything claimed of fromRootKey. Beyond the claim: Attributes::fromKey itself writes a wrong path plaintext for 24 or more indices (C79_path_format is the exact condition). Botan primitives are parameters with size and AEAD laws."
  },
  {
   "property": "C80",
   "status": "partial",
   "theorems": [
    "Cardano.Ada.C80_whole_ada",
    "Cardano.Ada.C80_roundtrip_partial",
    "Cardano.Ada.C80_off_by_one_partial",
    "Cardano.Ada.C80_error_bound_partial",
    "Cardano.Ada.C80_negative",
    "Cardano.Ada.C80_monotone",
    "Cardano.Ada.C80_defined",
    "Cardano.Ada.C80_loses_a_lovelace",
    "Cardano.Ada.C80_rounding_nearest",
    "Cardano.Ada.C80_exact",
    "Cardano.Ada.C80_exact_top"
   ],
   "note": "The full claim is false of the code: C80_loses_a_lovelace (249 comes back as 248). Proved: exact on whole ADA; never gains and loses at most one lovelace below 2^52; off by at most one below 2^53; general error bound to 2^62. The exact set of amounts below 2^53 that do not come back, and what they become, is a closed form over whole numbers (C80_exact, C80_exact_top)."
  },
  {
   "property": "C81",
   "status": "partial",
   "theorems": [
    "Cardano.SecMem.C81_scrubbed",
    "Cardano.SecMem.C81_frame",
    "Cardano.SecMem.C81_locked_iff",
    "Cardano.SecMem.C81_locked_partial",
    "Cardano.SecMem.C81_neighbour_unlocked",
    "Cardano.SecMem.C81_copy_not_locked",
    "Cardano.SecMem.C81_values"
   ],
   "note": "Erasure, framing and error reporting hold for every history. Locking while alive is false of the code (neighbour on the same page, copies); the exact set of locked pages after any history is C81_locked_iff."
  },
  {
   "property": "C82",
   "status": "partial",
   "theorems": [
    "Cardano.TxBuilder.C82_reads",
    "Cardano.TxBuilder.C82_sound_partial",
    "Cardano.TxBuilder.C82_undefined",
    "Cardano.TxBuilder.C82_long_id_cut",
    "Cardano.TxBuilder.C82_order",
    "Cardano.TxBuilder.C82_versions",
    "Cardano.TxBuilder.C82_order_trans",
    "Cardano.TxBuilder.C82_accepts_iff",
    "Cardano.TxBuilder.C82_undefined_iff"
   ],
   "note": "Documents of the format are read exactly; other documents are not all refused: missing members and short ids are undefined behaviour, long ids are cut (proved). Both the accepted documents (C82_accepts_iff) and the undefined ones (C82_undefined_iff) are characterised exactly; all others throw."
  },
  {
   "property": "C83",
   "status": "proved",
   "theorems": [
    "Cardano.Bech32.C83_substitutions_detected",
    "Cardano.Address.C83_address_typos"
   ],
   "note": "GF(32)-linearity of polymod and kernel evaluation: no three columns of length 1023 and no four of length 89 are dependent."
  },
  {
   "property": "C84",
   "status": "partial",
   "theorems": [
    "Cardano.Ledger.C84_agrees",
    "Cardano.Ledger.C84_replaces",
    "Cardano.Ledger.C84_failed_read_keeps_partial",
    "Cardano.Ledger.C84_variants_replace_iff",
    "Cardano.Ledger.C84_rewards_accumulate",
    "Cardano.Ledger.C84_rational_zero_denominator",
    "Cardano.Ledger.C84_rational_failed",
    "Cardano.Ledger.C84_metadata_mixed",
    "Cardano.Ledger.C84_credential_mixed",
    "Cardano.Ledger.C84_body_failed",
    "Cardano.Ledger.C84_body_mixed",
    "Cardano.Ledger.C84_transaction_failed",
    "Cardano.Ledger.C84_transaction_stale_witnesses",
    "Cardano.Ledger.C84_transaction_kept"
   ],
   "note": "Proved: every member deserialize agrees with the value readers; the types whose successful read replaces everything and whose failed read keeps everything are listed and proved. False of the code for the rest: reward certificates append to the entries already held; unknown relay, certificate and script types leave the old object in place silently; Rational (denominator 0), PoolMetadata (new URL, old hash), StakeCredential (new type, old hash), TransactionBody and Transaction (old signatures over a half-read body) are mixtures after an exception. Each of these is proved, with the exact object left behind."
  },
  {
   "property": "C85",
   "status": "partial",
   "theorems": [
    "Cardano.TxBuilder.C85_updateFee_failed",
    "Cardano.TxBuilder.C85_other_calls_partial",
    "Cardano.TxBuilder.C85_throwing_calls",
    "Cardano.TxBuilder.C85_balance_failed",
    "Cardano.TxBuilder.C85_insufficient_loses_outputs",
    "Cardano.TxBuilder.C85_retry_pays_no_one",
    "Cardano.BabbageBuilder.C85_babbage"
   ],
   "note": "Proved for the Babbage builder and for every Shelley call except updateFee and balance. False of those two: a throwing updateFee has set the fee to the constant part and dropped the key witnesses (proved exactly); a throwing balance keeps everything but outputs, fee and key witnesses, and reports insufficient funds only after removing every output (proved for all builders whose funds are below deposits plus the constant fee); a concrete history shows that repairing the funds and balancing again pays everything to the change address."
  },
  {
   "property": "C86",
   "status": "proved",
   "theorems": [
    "Cardano.Bip32.C86_extended_keys_as_bytes",
    "Cardano.Bip32.C86_stored_key_public"
   ],
   "note": ""
  },
  {
   "property": "C87",
   "status": "proved",
   "theorems": [
    "Cardano.Ledger.C87_rational",
    "Cardano.Ledger.C87_poolMetadata",
    "Cardano.Ledger.C87_credential",
    "Cardano.Ledger.C87_output",
    "Cardano.Ledger.C87_input",
    "Cardano.Ledger.C87_relay",
    "Cardano.Ledger.C87_rewards",
    "Cardano.Ledger.C87_certificate",
    "Cardano.Ledger.C87_script",
    "Cardano.Ledger.C87_bytes",
    "Cardano.C87_encodings",
    "Cardano.C87_addresses",
    "Cardano.C87_byron",
    "Cardano.C87_mnemonic",
    "Cardano.C87_keys",
    "Cardano.C87_vrf",
    "Cardano.C87_tss",
    "Cardano.C87_transaction",
    "Cardano.Genesis.C87_genesis"
   ],
   "note": "The table of Spec/Errors is the code's; it is not uniform (inputs, scripts and pool registrations report structure as invalid_argument, retirements report length as runtime_error), and lists the undefined behaviour of genesis delegations, untagged margins, n-of-k scripts and non-array children."
  },
  {
   "property": "C88",
   "status": "partial",
   "theorems": [
    "Cardano.Tss.C88_last_share_missing_partial",
    "Cardano.Tss.C88_other_share_missing",
    "Cardano.Tss.C88_not_perfect",
    "Cardano.Tss.C88_not_perfect_numbers"
   ],
   "note": "True if the share numbered n is missing. False otherwise: shares 1..n-1 are clamped keys rather than uniform scalars, so with one of them missing the observed shares rule out three quarters of all secrets (C88_not_perfect)."
  },
  {
   "property": "C89",
   "status": "partial",
   "theorems": [
    "Cardano.Mnemonic.C89_other_language_refused_partial",
    "Cardano.Mnemonic.C89_chinese_same_phrase",
    "Cardano.Mnemonic.C89_no_common_word",
    "Cardano.Mnemonic.C89_chinese_numbers",
    "Cardano.Mnemonic.C89_english_french_numbers",
    "Cardano.Mnemonic.C89_english_french_differ",
    "Cardano.Mnemonic.C89_ambiguous_text"
   ],
   "note": "True for all pairs of languages except English and French: a text accepted in both always stands for two different entropies, and such texts exist (the checksum is not checked by the constructor)."
  },
  {
   "property": "C90",
   "status": "proved",
   "theorems": [
    "Cardano.Address.C90_address_of_keys",
    "Cardano.Address.C90_text_names_keys",
    "Cardano.Bip32.C90_watch_only",
    "Cardano.Bip32.C90_watch_only_spendable"
   ],
   "note": "Blake2b-224 and HMAC-SHA512 are parameters; collisions are named in the conclusion. The exception is exact: it occurs iff an HMAC on this very path starts with 28 zero bytes (ZeroStep)."
  },
  {
   "property": "C91",
   "status": "proved",
   "theorems": [
    "Cardano.TxBuilder.C91_accepted_iff",
    "Cardano.TxBuilder.C91_counted_iff",
    "Cardano.TxBuilder.C91_careful",
    "Cardano.TxBuilder.C91_funds_suffice",
    "Cardano.TxBuilder.C91_any_witnesses_iff",
    "Cardano.TxBuilder.C91_deregistration_rejected"
   ],
   "note": "Exact: accepted if and only if the builder counted right (C91_accepted_iff), and when it does (C91_counted_iff). Ledger rules: UTXO and UTXOW without metadata, scripts, Byron addresses; DELEGS is not part of these rules (see C97)."
  },
  {
   "property": "C92",
   "status": "proved",
   "theorems": [
    "Cardano.Pool.C92_blocks_accepted",
    "Cardano.Pool.C92_kes_verify_iff",
    "Cardano.Pool.C92_unused_certificate_rejected",
    "Cardano.Pool.C92_late_rotation",
    "Cardano.Pool.C92_seed_phrase_key"
   ],
   "note": "Ed25519 and Blake2b-256 are parameters shared with the network; signatures with nonce zero (never for hash outputs in practice) are excluded by a hypothesis. Stricter Praos rule: needs every certificate used, shown necessary by C92_unused_certificate_rejected."
  },
  {
   "property": "C93",
   "status": "proved",
   "theorems": [
    "Cardano.BabbageBuilder.C93_two_pass"
   ],
   "note": "Rules for what the builder can express: no scripts, certificates, minting, collateral, metadata, Byron addresses. Termination of calculateFee is part of the conclusion (parameters for which the fee of the largest transaction fits in 64 bits)."
  },
  {
   "property": "C94",
   "status": "proved",
   "theorems": [
    "Cardano.Restore.C94_restore",
    "Cardano.Restore.C94_any_language",
    "Cardano.Restore.C94_encrypted_backup",
    "Cardano.Restore.C94_checksum_variants",
    "Cardano.Restore.C94_variants_accepted",
    "Cardano.Restore.C94_restored_spends"
   ],
   "note": "SHA-256, PBKDF2, HMAC, ChaCha20 and Blake2b-224 are parameters."
  },
  {
   "property": "C95",
   "status": "proved",
   "theorems": [
    "Cardano.PoolKeys.C95_files",
    "Cardano.PoolKeys.C95_bad_phrase",
    "Cardano.PoolKeys.C95_phrase",
    "Cardano.PoolKeys.C95_any_device",
    "Cardano.PoolKeys.C95_full_disk_unreported"
   ],
   "note": "Every behaviour of the devices is covered (C95_any_device); a full disk is not reported by the program (C95_full_disk_unreported). The program does not increment the counter it has saved: cold.counter announces 0 although pool.cert uses 0 (part of the proved content)."
  },
  {
   "property": "C96",
   "status": "proved",
   "theorems": [
    "Cardano.TssWallet.C96_threshold_wallet",
    "Cardano.TssWallet.C96_direct_wallet",
    "Cardano.Tss.C38_one_short"
   ],
   "note": "With one holder of a direct sharing the code is wrong (C38_direct_single_fails, see C38)."
  },
  {
   "property": "C97",
   "status": "proved",
   "theorems": [
    "Cardano.TxBuilder.C97_takes_effect",
    "Cardano.TxBuilder.C97_staking",
    "Cardano.TxBuilder.C97_pools",
    "Cardano.TxBuilder.C97_spend_next"
   ],
   "note": "When the builder has not counted right the network rejects the transaction (C91_funds_suffice). Not in the ledger rules: change of epoch, stake scripts, genesis delegations, instantaneous rewards. Hypothesis: no unspent output has the new id yet."
  },
  {
   "property": "C98",
   "status": "proved",
   "theorems": [
    "Cardano.Kes.C98_in_use",
    "Cardano.Kes.C98_after_drop"
   ],
   "note": "Depth at least 1 (depth 0 has no publicKey(), and signCompact on it is undefined behaviour, C26). Messages whose derived Ed25519 nonce is zero are exempt from verification, as in C71."
  },
  {
   "property": "C99",
   "status": "proved",
   "theorems": [
    "Cardano.Ledger.C99_grammar",
    "Cardano.Ledger.C99_read",
    "Cardano.Ledger.C99_written",
    "Cardano.Ledger.C99_faithful_iff",
    "Cardano.Ledger.c99Tx_bytes"
   ],
   "note": "Exact in both directions. `update` and `metadata` are modelled by their presence only; CBOR with indefinite lengths is not accepted by the parser. Transactions outside the CDDL are the subject of C65, C80 and C87."
  },
  {
   "property": "C100",
   "status": "proved",
   "theorems": [
    "Cardano.Ledger.Babbage.C100_unique",
    "Cardano.Ledger.Babbage.C100_written",
    "Cardano.Ledger.Babbage.C100_faithful_iff",
    "Cardano.BabbageBuilder.C100_builder"
   ],
   "note": "The relation covers what the library's Babbage types can express (coin-only values, datum hashes, script references, key witnesses)."
  },
  {
   "property": "C101",
   "status": "proved",
   "theorems": [
    "Cardano.TxBuilder.C101_bytes_iff",
    "Cardano.TxBuilder.C101_builder_iff",
    "Cardano.TxBuilder.C101_careful"
   ],
   "note": "Rules UTXO and UTXOW as in C91, stated for byte strings with an independent CBOR relation (Spec/Rfc8949), the CDDL relation (Spec/LedgerMeaning) and the rules (Spec/Wire)."
  },
  {
   "property": "C102",
   "status": "partial",
   "theorems": [
    "Cardano.TxBuilder.C102_loaded_iff",
    "Cardano.TxBuilder.C102_chain_partial",
    "Cardano.TxBuilder.C102_accepted_partial",
    "Cardano.TxBuilder.C102_foreign",
    "Cardano.TxBuilder.C102_pool_rejected",
    "Cardano.TxBuilder.C102_reencoded_rejected",
    "Cardano.TxBuilder.C102_reencoding_example"
   ],
   "note": "Proved for transactions without pool registrations. The full claim is false of the code: a loaded pool registration loses relays and metadata, and what is sent on is never accepted (C102_pool_rejected); the body of received bytes is encoded anew, so a signature for another encoding becomes invalid (C102_reencoded_rejected, with an example)."
  },
  {
   "property": "C103",
   "status": "proved",
   "theorems": [
    "Cardano.BabbageBuilder.C103_bytes_iff",
    "Cardano.BabbageBuilder.C103_builder_iff",
    "Cardano.BabbageBuilder.C103_two_pass"
   ],
   "note": "Rules as in C93, stated for byte strings with an independent CBOR relation (Spec/Rfc8949), the CDDL relation (Spec/BabbageMeaning) and the rules (Spec/BabbageWire); the least amount of an output is computed from the bytes in which it arrives."
  },
  {
   "property": "C104",
   "status": "proved",
   "theorems": [
    "Cardano.Address.C104_text_names",
    "Cardano.Address.C104_owner_text",
    "Cardano.TxBuilder.C104_bytes_leave",
    "Cardano.TxBuilder.C104_arrives",
    "Cardano.TxBuilder.C104_balanced_arrives",
    "Cardano.TxBuilder.C104_wrong_network",
    "Cardano.BabbageBuilder.C104_babbage_leave",
    "Cardano.BabbageBuilder.C104_babbage_arrives"
   ],
   "note": "What the text names is defined by Spec/Bip173 and CIP-19 (Spec/PayText), what the node does by Spec/Wire and Spec/BabbageWire with the UTxO update. After balance() with too little money the Shelley builder may reduce or drop the last payment (C52); the theorem for balanced transactions therefore has the hypothesis of C97 that the funds suffice."
  },
  {
   "property": "C105",
   "status": "proved",
   "theorems": [
    "Cardano.PoolKeys.C105_killed_iff",
    "Cardano.PoolKeys.C105_certificate_after_keys",
    "Cardano.PoolKeys.C105_rerun",
    "Cardano.PoolKeys.C105_mixture",
    "Cardano.PoolKeys.C105_readable"
   ],
   "note": "Devices that take the files (C95 covers the others). The process is killed, the machine goes on: what was handed to the operating system is in the directory. The list of writes (Model/PoolKeysCrash) run to its end is proved equal to the program of C95 (run_prog)."
  },
  {
   "property": "C106",
   "status": "proved",
   "theorems": [
    "Cardano.Util.C106_envelope_json",
    "Cardano.Util.C106_crash",
    "Cardano.Pool.C106_key_files",
    "Cardano.Pool.C106_certificate_files",
    "Cardano.Pool.C106_pool_files",
    "Cardano.Util.C106_written"
   ],
   "note": "The grammar of RFC 8259 is written out as relations between bytes and values (Spec/Json). C106_crash is for fields in which nothing needs an escape, which holds of all files of the library."
  },
  {
   "property": "C107",
   "status": "proved",
   "theorems": [
    "Cardano.Genesis.JsonText.C107_exact",
    "Cardano.Genesis.JsonText.C107_undefined",
    "Cardano.Genesis.JsonText.C107_reads",
    "Cardano.Genesis.JsonText.C107_unambiguous",
    "Cardano.Genesis.JsonText.C107_faithful",
    "Cardano.Genesis.JsonText.C107_truncated",
    "Cardano.Genesis.JsonText.C107_layout",
    "Cardano.Genesis.JsonText.C107_last_counts",
    "Cardano.Genesis.JsonText.C107_written_read",
    "Cardano.Genesis.JsonText.C107_refused"
   ],
   "note": "The JSON library is not part of the repository: its parser is modelled as a recursive-descent parser (Model/JsonText) and proved sound and complete for the grammar of RFC 8259 (Spec/Json, Lemmas/JsonText); the tree it builds is proved to be the one the relation Means (Spec/JsonTree) describes. The conversion of decimal fractions to doubles (strtod) is a parameter. Byte order mark, trailing bytes and last-member-counts are the behaviour of nlohmann's operator>>. Which documents are readable is C73. For Shelley the slot length is wrong (C60, C73), which is not part of this claim."
  },
  {
   "property": "C108",
   "status": "proved",
   "theorems": [
    "Cardano.C108_shelley",
    "Cardano.C108_babbage",
    "Cardano.C108_reread",
    "Cardano.C108_owners",
    "Cardano.C108_determined",
    "Cardano.C108_one_arrangement",
    "Cardano.C108_total_order"
   ],
   "note": "The order is stated without the model's comparison functions (Spec/SetOrder): dictionary order of unsigned bytes. Reading back the lists from the bytes is C108_determined. Bodies read from bytes are the Shelley ones (the Babbage reader always throws)."
  },
  {
   "property": "C109",
   "status": "proved",
   "theorems": [
    "Cardano.C109_shelley",
    "Cardano.C109_babbage",
    "Cardano.Cbor.C109_unique",
    "Cardano.Cbor.C109_encodes"
   ],
   "note": "Spec/Deterministic states section 4.2.1 of RFC 8949 without the model's encoder. Transactions read from bytes and written again are not covered here: their certificates and metadata may hold items in any order."
  },
  {
   "property": "C110",
   "status": "proved",
   "theorems": [
    "Cardano.Byron.C110_byron",
    "Cardano.Byron.C110_same_bytes"
   ],
   "note": "Redeem addresses are written with the type of script addresses (C14), so the second statement leaves them out."
  },
  {
   "property": "C111",
   "status": "partial",
   "theorems": [
    "Cardano.Byron.C111_exact_partial",
    "Cardano.Byron.C111_text",
    "Cardano.Byron.C111_counterexample",
    "Cardano.Byron.C111_written_good"
   ],
   "note": "False of the code: the Base58 text \"2\" makes fromBase58 follow a null pointer, and a root of 29 bytes is copied beyond the 28-byte member. Proved: exactly which inputs are read, refused, or leave defined behaviour (Spec/ByronFaults, on RFC 8949 items), and that every address the library writes is read."
  },
  {
   "property": "C112",
   "status": "partial",
   "theorems": [
    "Cardano.Byron.C112_canonical_partial",
    "Cardano.Byron.C112_counterexample"
   ],
   "note": "False of the code for every address: anything may follow the CBOR item, so each address has infinitely many accepted texts (proved). Proved: accepted bytes are the written ones exactly if both layers are deterministic CBOR with nothing left over, stated without the model's writer."
  }
 ]
}