{
 "C01": {
  "status": "proved",
  "note": "toHex text and untouched-on-small-buffer, fromHex in any letter case, round trip."
 },
 "C02": {
  "status": "partial",
  "note": "Exact behaviour proved for all inputs; the no-overrun part is false of the code (C02_fromHex_overrun), proved for buffers of at least half the text length."
 },
 "C03": {
  "status": "partial",
  "note": "Proved up to 256 bytes; false beyond (C03_fromBin_wraps, 8-bit index)."
 },
 "C04": {
  "status": "proved",
  "note": "Encoder equals the mathematical numeral for every byte string; size estimate always sufficient."
 },
 "C05": {
  "status": "partial",
  "note": "Exact iff-characterisation of when the round trip holds, for strings of every length (C05_roundtrip_iff); always without leading zero bytes below 2^20 bytes. False for some strings with leading zeros (C05_roundtrip_fails) and for every long one (C05_long_fails)."
 },
 "C06": {
  "status": "partial",
  "note": "Soundness and untouched-on-failure for all texts; exact condition for the round trip, any length (C06_roundtrip_iff); it always holds for payloads starting with a nonzero byte, below 2^20 bytes; false otherwise (C06_valid_rejected)."
 },
 "C07": {
  "status": "partial",
  "note": "Encoder fully proved; exact condition for the round trip, any length (C07_roundtrip_iff); false with leading zeros (C07_roundtrip_fails) and for every string of 122000 bytes or more (C07_long_fails)."
 },
 "C08": {
  "status": "partial",
  "note": "All flavours for non-empty input; empty input and unterminated unpadded text access memory out of bounds (C08_empty_overrun, C08_empty_decode_overread, C08_unpadded_overread)."
 },
 "C09": {
  "status": "proved",
  "note": "All widths 0..8; larger widths are undefined behaviour (C09_wide_undefined)."
 },
 "C10": {
  "status": "proved",
  "note": "Exact encoding, round trip, prefix-freeness, truncation, bounds."
 },
 "C100": {
  "status": "partial",
  "note": "C100_tx_partial and C100_psbt_partial: in any pieces, unchanged as long as nothing failed, and the code of the part that failed otherwise. Two kinds of failure set nothing (C100_flag_silent, C100_codes_ambiguous) and codes are ambiguous (C100_codes_ambiguous)."
 },
 "C101": {
  "status": "partial",
  "note": "Everything as stated for numbers below 256 (C101_terms, C101_others, C101_signature, C101_commute, C101_any_order, C101_series, C101_again, C101_txid, C101_txid_series, C101_electrum, C101_psbt). False for numbers from 256 on, which sign another input (C101_index_wraps). C101_electrum says which inputs are left alone for up to 256 inputs."
 },
 "C102": {
  "status": "partial",
  "note": "Inputs: exact result for every text of 64 or more characters (C102_text_exact), correct for every hex text of an id in any case (C102_text), for txid() of any transaction (C102_parent), for bytes and scripts (C102_bytes). Outputs: scripts (C102_out_script), legacy addresses but mainnet key hash ones (C102_out_legacy; those are C23), witness addresses but Regtest (C102_out_witness). That text which is no id or address is refused is false; the deviations are proved."
 },
 "C103": {
  "status": "partial",
  "note": "C103_cosigners (segwit and nested), C103_cosigners_legacy (p2sh), C103_single (one key: p2wpkh, nested, p2pkh) from the bytes of the document to the interpreter; C103_bare for bare scripts and C103_p2wsh, C103_p2sh_p2wsh, C103_p2sh, C103_p2wpkh, C103_p2pkh for any collection of signatures of the library; C103_signer for one signer. Hypotheses of C58: documents inside the limits, compressed keys, paths not shorter than the hardened part of the first one, no 10000 refused nonces. False: passing a PSBT on from signer to signer (C103_passed_on)."
 },
 "C104": {
  "status": "partial",
  "note": "Proved for nested segwit on all networks, native segwit on all networks but Regtest, legacy on the test networks, and on the main network exactly for texts of at least 33 characters. For the rest the claim is proved false. That no nonce is found in 10000 attempts is excluded by a hypothesis."
 },
 "C105": {
  "status": "partial",
  "note": "The public keys always agree; the addresses agree exactly if the type is P2SH-P2WPKH, or the type is not P2PKH and the network is not Regtest (`HDPriv.C105_watch`, an equivalence). In the other cases the claim is proved false."
 },
 "C106": {
  "status": "partial",
  "note": "Proved for BIP 44 and 49 on all networks and BIP 84 on all networks but Regtest, where it is proved false. The keys along the path are assumed to exist in the sense of BIP 32 (probability of the opposite about 2^-127); C40 and C67 say what the code does otherwise."
 },
 "C107": {
  "status": "partial",
  "note": "Missing as in C58: documents in which a path under the master key is shorter than the hardened part of the first one (sign is undefined there, C58_short_path_undefined) and more than 255 signatures for an input. Seeds without a master key are not covered (C67_exact says what happens then)."
 },
 "C108": {
  "status": "partial",
  "note": "C108_native on all networks but Regtest, C108_nested on all networks, C108_legacy_partial for scripts of at most 75 bytes. For the rest the claim is proved false (C108_legacy_long, C108_regtest). That no nonce is found in 10000 attempts is excluded by a hypothesis."
 },
 "C109": {
  "status": "partial",
  "note": "C109_payment_partial and C109_id for 1 to 252 inputs and at most 252 outputs; with more inputs the claim is false (C14_many_inputs_lost; the index of signInput is a byte, C101_index_wraps). That no nonce is found in 10000 attempts is excluded by a hypothesis, shown to hold for complete payments in Props/PaymentVector. C109_id_changes: the id changes if not all outputs are native segwit."
 },
 "C11": {
  "status": "partial",
  "note": "Proved for scripts, witnesses, inputs, outputs without restriction, for transactions with fewer than 253 inputs, outputs and items per stack. For larger counts the code writes only one byte of the count (Transaction.cpp:310-328) and the claim is false."
 },
 "C110": {
  "status": "proved",
  "note": "For all networks and types. Excludes derived keys with secret 0 (invalid by BIP 32) and, as C104, signing transactions for which none of 10000 nonce candidates is usable."
 },
 "C111": {
  "status": "proved",
  "note": "ecdh, verify, schnorr_verify and multiplication of a point are for valid public keys, with any signature; everything else is without conditions on the values. Draws are in the range which generate_k_random ensures (C97)."
 },
 "C12": {
  "status": "proved",
  "note": "For transactions, stacks of fewer than 256 items (isSegwit looks at the low byte of the item count, Bitcoin.h:575)."
 },
 "C13": {
  "status": "partial",
  "note": "Scripts below 2^31 bytes (the parser refuses longer ones, C13_script_2G_refused) and witnesses with fewer than 253 items below 2^31 bytes."
 },
 "C14": {
  "status": "partial",
  "note": "Transactions with 1..252 inputs and fewer than 253 outputs; inputs and outputs in full. False for larger counts (C14_many_inputs_lost) and for transactions without inputs (C14_no_inputs_refused, C14_no_inputs_misread)."
 },
 "C15": {
  "status": "partial",
  "note": "Any cut into non-empty pieces for scripts, inputs, outputs, legacy transactions. False for witnesses cut inside an item length (C15_witness_cut_prefix) and segwit transactions cut between the outputs and the end of the witnesses (C15_tx_cut_fails); proved for all other cuts."
 },
 "C16": {
  "status": "partial",
  "note": "Truncation for scripts, inputs, outputs, legacy transactions; failure is final for every class. False for witnesses (C16_witness_truncated_done), for some segwit transactions (C16_tx_truncated_done) and for a wrapping script length (C16_script_wraps); proved outside those cases."
 },
 "C17": {
  "status": "partial",
  "note": "Scripts, inputs, outputs in full; witnesses and transactions outside the truncation defects and with counts below 253; marked transactions without witnesses are re-serialized without marker (C17_tx_marker_dropped)."
 },
 "C18": {
  "status": "proved",
  "note": "For every transaction whose full encoding is shorter than 2^60 bytes (the code's byte counters are 64-bit bit counts). C18_wtxid_without_witness records that for transactions without witnesses the wtxid is not BIP 141's."
 },
 "C19": {
  "status": "partial",
  "note": "SIGHASH_ALL (and every type that signs all inputs and outputs) proved equal to Bitcoin's algorithm; NONE, SINGLE and an index past the inputs are accepted and hashed wrongly (C19_none_wrong, C19_single_wrong, C19_index_out_of_range). C19_sighash_any says what the code does hash for every type and index."
 },
 "C20": {
  "status": "partial",
  "note": "BIP 143 proved for types that sign everything; the preimage determines its fields; NONE deviates (C20_none_wrong) and an index past the inputs is undefined behaviour (C20_index_undefined)."
 },
 "C21": {
  "status": "proved",
  "note": "The returned count is a uint8_t, i.e. modulo 256."
 },
 "C22": {
  "status": "proved",
  "note": "type() is exact; constructors pkh, wpkh, sh, wsh, Script(pubkey,type), Script(script,type) give the standard scripts"
 },
 "C23": {
  "status": "partial",
  "note": "Proved for P2SH on all networks, P2PKH on test networks, P2PKH on Mainnet iff the text has at least 33 characters (always when the hash does not start with two zero bytes), witness scripts on Mainnet/Testnet/Signet. Code disagrees for Regtest witness scripts and short Mainnet P2PKH texts (stated as theorems)."
 },
 "C24": {
  "status": "partial",
  "note": "Proved for texts up to 62 characters or without a segwit prefix. Code disagrees: long programs overrun prog[32], versions 1..16 give a wrong script, trailing characters are ignored, some 38-character texts decode to an existing script (stated as theorems)."
 },
 "C25": {
  "status": "proved",
  "note": "Allocation is assumed to succeed."
 },
 "C26": {
  "status": "partial",
  "note": "Keys, signatures and scripts below 76 bytes; longer scripts are not one data push (C26_long_script_wrong)."
 },
 "C27": {
  "status": "partial",
  "note": "multi proved; sortedmulti does not sort (C27_sortedmulti_wrong)."
 },
 "C28": {
  "status": "proved",
  "note": "Allocation is assumed to succeed."
 },
 "C29": {
  "status": "partial",
  "note": "Round trip (lower and upper case) and exact acceptance proved for every text; but the length limit in the code is 1000, not 90 (C29_limit_is_1000), and a text without separator makes the prefix loop run past the buffer (C29_no_separator_overruns)."
 },
 "C30": {
  "status": "proved",
  "note": "One substitution at any length, two substitutions up to the code's limit of 1000 characters."
 },
 "C31": {
  "status": "partial",
  "note": "Round trip and exact acceptance for every version, program, prefix and text of at most 90 characters; longer texts overrun the local buffers (C31_long_data_overruns). The specification is BIP 173; BIP 350 (Bech32m for version 1+) is not implemented by the code."
 },
 "C32": {
  "status": "proved",
  "note": "der() writes the unique DER encoding for every r, s into every buffer which can hold it; reading it back (whatever follows) restores them; the stream interface writes windows of it. A shorter buffer is overrun (C32_der_overrun)."
 },
 "C33": {
  "status": "partial",
  "note": "Success implies the consumed bytes are DER except for the SEQUENCE length byte, and no access outside buffers. The SEQUENCE length itself is not checked by the code (C33_total_length_ignored); split input is refused (C33_pieces_refused)."
 },
 "C34": {
  "status": "proved",
  "note": "ECDSA bin/fromBin for every buffer size, Schnorr stream round trip for any split into pieces."
 },
 "C35": {
  "status": "partial",
  "note": "Encoding, round trip and rejection of bad checksums are proved for every key in [1, n-1] and every network. C35_accepts_only_wif describes exactly what is accepted. Not as claimed: C35_unknown_version_keeps_key, C35_large_undefined, C35_marker_ignored; regtest and signet keys come back as testnet because they share the version byte."
 },
 "C36": {
  "status": "partial",
  "note": "Encoding, round trip in any pieces and decoding of the generator are proved. C36_accepts_only_points_partial: compressed encodings are accepted only if on the curve. Missing because false in the code: uncompressed keys off the curve are accepted (C36_invalid_accepted), isValid ignores y for them (C36_isValid_ignores_y), reuse of an object between pieces (C36_interleaved, C36_interleaved_undefined)."
 },
 "C37": {
  "status": "partial",
  "note": "Serialization, round trip through bytes in any pieces, through text, checksum and refusal of bad texts for every key, network and script type. Not as claimed: single-signature and multisig types without version bytes of their own come back as unknown (C37_type_lost), regtest and signet share prefixes with testnet, longer payloads are accepted (C37_length_ignored), points not on the curve are accepted for some uninitialised memory (C37_invalid_accepted, C37_pub_overread)."
 },
 "C38": {
  "status": "partial",
  "note": "Well-formed paths of any length derive exactly the children named (C38_prv_derives, C38_pub_derives), paths with other characters or indexes not below 2^31 are rejected. Not as claimed: C38_undefined (empty text), C38_after_m, C38_empty_component, C38_wrong_accepted."
 },
 "C39": {
  "status": "partial",
  "note": "Child number, fingerprint, depth (below 255), script type and network along the path. The depth wraps at 255 (C39_depth_wraps). networkAt and typeAt describe what the code does with BIP44/49/84/48 paths."
 },
 "C40": {
  "status": "partial",
  "note": "Public and private derivation agree for every non-hardened index, index list and path text; children are those of BIP32 whenever BIP32 defines them. Not refused by the code: invalid children (C40_never_refused) and hardened children of public keys (C40_hardened_not_refused)."
 },
 "C41": {
  "status": "partial",
  "note": "Phrases of 12, 18 and 24 words: generated text is the BIP39 phrase (official word list by its SHA-256), passes the check and decodes to the entropy and its checksum bits. Phrases of 15 and 21 words are generated correctly but rejected by the code, so the round trip fails for 20 and 28 bytes (C41_15_21_rejected)."
 },
 "C42": {
  "status": "proved",
  "note": "For every text below 2^32 - 1 characters: defined, and accepted exactly for the phrases of BIP39 for 16, 24 or 32 bytes of entropy. mnemonicToEntropy does not look at the checksum (C42_checksum_ignored)."
 },
 "C43": {
  "status": "partial",
  "note": "SHA-256, SHA-512, Hash160, DoubleSha, TaggedHash: any pieces up to 2^61 bytes in all, against FIPS 180-4 / RIPEMD paper specs. RMD160 for pieces below 4 GiB; false for longer ones (C43_rmd160_long_piece)."
 },
 "C44": {
  "status": "partial",
  "note": "Any key and any pieces with lengths below 2^32 (the length parameters are uint32_t); false at 4 GiB (C44_hmac_sha256_long_message)."
 },
 "C45": {
  "status": "proved",
  "note": "Any password (below 2^32 bytes), salt, iteration count >= 1, key length; any split of the iterations whose first part is not 0 (C45_zero_first shows what 0 does)."
 },
 "C46": {
  "status": "partial",
  "note": "The candidate stream is the RFC 6979 DRBG seeded with key and digest; equal to RFC 6979 for digests below the order, different above (C46_large_digest_deviates)."
 },
 "C47": {
  "status": "proved",
  "note": "Both byte orders, every 32-byte string and every number below 2^256."
 },
 "C48": {
  "status": "proved",
  "note": "Every modulus in [2^256-2^224, 2^256) in normal form; machine words wrap as in C. Multiplication for every product below 2^271 times the modulus (includes the documented range)."
 },
 "C49": {
  "status": "proved",
  "note": "Every prime modulus in range (secp256k1's p and n shown prime), every nine words not a multiple of it. The inverse of zero reads outside an array (C49_zero_out_of_bounds)."
 },
 "C50": {
  "status": "partial",
  "note": "point_add and point_double for all points; scalar_multiply for all scalars below the order and every random number; point_multiply for every point but infinity. For infinity and a nonzero scalar the code inverts zero (C50_multiply_infinity_undefined). The group order and all 512 table entries are proved."
 },
 "C51": {
  "status": "proved",
  "note": "Signing equals deterministic low-s ECDSA in the curve group for every draw of random numbers; verification equals SEC 1 except for digests congruent to 0; sign-then-verify follows."
 },
 "C52": {
  "status": "proved",
  "note": "Ranges of r and s and low s for every signature; verification does not enforce low s."
 },
 "C53": {
  "status": "partial",
  "note": "Signing and verification are described exactly against the BIP340 equations with this library's nonce; made signatures verify. C53_roundtrip_partial excludes the nonce 0 case, in which signing fails an assertion (C53_sign_undefined). Not as claimed: (r, n-s) of a valid signature may also be accepted (C53_negated_s_accepted), s at or above n fails an assertion (C53_large_s_undefined)."
 },
 "C54": {
  "status": "proved",
  "note": "ECDH equals the sha256 of the compressed shared point or the raw point and is symmetric, for every pair of keys."
 },
 "C55": {
  "status": "partial",
  "note": "Exact value modulo 2^64 for every object with metadata for its inputs; the claim for totals below 2^64 and non-zero known amounts, and end to end after parsing. False beyond: sums wrap, a known amount 0 counts as unknown, undefined after a failed second parse (C55_wraps, C55_zero_amount, C55_after_failure)."
 },
 "C56": {
  "status": "partial",
  "note": "Every previous transaction in an accepted PSBT has the outpoint's id and the output; the recorded output comes from the last pair that tells about it (C56_recorded, for all accepted PSBTs); others are refused. The claim as a whole is false: a later key 01 pair replaces an authenticated output (C56_witness_overrides)."
 },
 "C57": {
  "status": "partial",
  "note": "Parsing: every document inside the limits is read back exactly, whatever follows it (C57_parse_partial). Serialization: the bytes are those of the document holding the transaction and the partial signatures (C57_toStream_partial), and parsing, serializing and parsing again gives that document (C57_written_partial, C57_roundtrip_partial). Missing because false in the code: everything but the transaction and the signatures is lost (C57_lost), serialization in pieces repeats delimiters (C57_offset_ignored), and parsing fails outside the limits (C57_255_sections, C57_utxo_252)."
 },
 "C58": {
  "status": "partial",
  "note": "Proved for PSBTs that hold a well-formed document, compressed root keys, and paths not shorter than the hardened part of the first path under the root (C58_sign_partial); outside that sign reads behind a path (C58_short_path_undefined, C58_undefined_document). The digest is that of consensus if the scripts fit the output (C58_digest); they are not checked (C58_scripts_unchecked). Assumes that no 10000 nonces in sequence are refused for validity of the signatures (C58_valid)."
 },
 "C59": {
  "status": "proved",
  "note": "BIP 380 checksum exactly for every text over the alphabet, empty string for other texts, one character (and up to four consecutive ones) always detected. The buffer overload treats NUL as a character of the alphabet (C59_nul_accepted), which strings cannot contain."
 },
 "C60": {
  "status": "partial",
  "note": "First half proved for every program using available() and read(); empty hex text is read out of bounds (C60_empty_hex_read). Second half is false (C60_bad_hex_accepted, C60_bad_locktime_accepted)."
 },
 "C61": {
  "status": "partial",
  "note": "Addition, subtraction, multiplication, division and the comparison are the field operations modulo n. C61_neg_partial: negation of non-zero scalars; the negation of zero is n, not reduced (C61_neg_zero). Division by zero is out of bounds (C61_div_zero); adding or subtracting a word wraps above the order (C61_addi_wraps, C61_subi_wraps)."
 },
 "C62": {
  "status": "partial",
  "note": "operator< is a strict total order on points (irreflexive, transitive, total) but is the reverse of the lexicographic order of the serialized keys (C62_order), and an equal point with the other compression flag can compare as less (C62_equal_and_less)."
 },
 "C63": {
  "status": "proved",
  "note": "Recovered key is the signer's, for every signature produced (C63_recover). For signatures and recovery numbers of any origin: refused exactly as SEC 1 4.1.6 demands (C63_refused), otherwise the key is r^-1(sR - eG) and the signature is valid for it (C63_recovered), except that s R = e G is undefined (C63_undefined)."
 },
 "C64": {
  "status": "partial",
  "note": "Addition, negation, subtraction and multiplication by a scalar below n are the group operation. Missing because false in the code: multiplying by n or more fails an assertion (C64_mul_large_undefined), multiplying infinity inverts zero (C64_mul_infinity_undefined)."
 },
 "C65": {
  "status": "partial",
  "note": "Any pieces, value modulo n, matching public key, zero refused, rest of the stream untouched. Not as claimed: the bytes of n are accepted as key zero (C65_order_accepted); constructors fail an assertion for values not below n (C65_constructor_undefined)."
 },
 "C66": {
  "status": "proved",
  "note": "Exact signing, exact verification for digests not divisible by n (others are refused, see C51_zero_digest_rejected), round trip."
 },
 "C67": {
  "status": "partial",
  "note": "C67_exact describes every seed. Missing because false in the code: a zero secret is accepted and one not below the order fails an assertion."
 },
 "C68": {
  "status": "partial",
  "note": "Seed is exact (C68_seed) for texts shorter than 2^32 bytes; the key is the master key whenever BIP32 defines one, and C68_exact says what happens otherwise (an assertion, or a zero secret) for about one of 2^127 seeds. Progress callbacks: C86_callback."
 },
 "C69": {
  "status": "partial",
  "note": "The claim is false: C69_rejects_partial and C69_other_key_partial give what the code does, C69_correct_rejected a correct signature that is rejected."
 },
 "C70": {
  "status": "partial",
  "note": "Texts are exact for every key and network and agree with the addresses of the scripts (C70_scripts); the extended private key agrees with its public key. Not as claimed: segwitAddress returns 76 instead of the length and needs 76 bytes (C70_segwit_partial, C70_segwit_short); multisig-typed extended keys give single-key addresses (C70_kind)."
 },
 "C71": {
  "status": "partial",
  "note": "Hash type ALL. C71_legacy_exact and C71_segwit_exact give the transaction exactly; C71_p2pkh, C71_p2sh_partial, C71_segwit, C71_segwit_key show that the input satisfies Bitcoin's rules (interpreter in Spec/Interp); C71_others and C71_order: other inputs. False of the code: other hash types (C71_type_not_recorded), P2SH of a key hash script (C71_p2sh_p2pkh), P2SH scripts over 75 bytes (C26), index past the inputs (C71_index_undefined)."
 },
 "C72": {
  "status": "partial",
  "note": "C72_parse_segwit (1 to 5 inputs), C72_parse_legacy; in any pieces C72_segwit_pieces (no piece ending inside the length of the script of the last output), C72_legacy_pieces, with C72_segwit_part, C72_legacy_part for documents not yet complete; C72_wrong_magic: other magic bytes are refused; C72_no_metadata: transactions with an input without metadata are refused; C72_legacy_bad_key: without segwit inputs, keys that are no keys are refused; C72_fee, C72_sign, and C72_document, C72_document_fee from document to result. False of the code: six and more inputs (C72_six_inputs), a piece ending in the length of a long last script (C72_cut_fails), unknown version bytes (C72_hang, C72_hang_any: no termination), keys that are no points are accepted (C72_any_keys), keys that start with the byte 4 are undefined (C72_mark_undefined, C72_legacy_mark_undefined), fee without amounts or of an unbalanced transaction (C72_fee_undefined, C72_fee_negative), sign without metadata (C72_sign_undefined), inputs of P2WSH wallets are counted as signed but given the witness for a key hash (C72_p2wsh, C72_nested_p2wsh)."
 },
 "C73": {
  "status": "partial",
  "note": "Exact answer for private and public keys (C73_private, C73_public), agreement on paths without hardened indexes, BIP32 keys on public paths. The claim itself is refuted: scripts and fingerprints are not compared (C73_script_unchecked, C73_document), hardened paths give another answer with the public key (C73_hardened), output numbers past the end are undefined (C73_number_undefined)."
 },
 "C74": {
  "status": "partial",
  "note": "False as stated: cuts at or inside later pairs drop the pair (C74_pair_lost, C74_input_field_lost, C74_output_field_lost), a cut inside a key drops the key and reads its value as the next pair (C74_key_lost), a cut before the end mark of a map joins maps (C74_mark_lost), a cut between a key and its value fails (C74_between_fails, C74_between_first_fails, for a preceding pair with a value that is not empty) or, after an empty value in the same map, drops the pair (C74_between_lost), short first pieces fail (C74_short_first, C74_fresh_first), a last byte alone never completes (C74_last_byte). Proved for any number of cuts inside the transaction (C74_in_transaction). Several cuts in different pairs are not covered. Data without the prefix are refused in any pieces (C74_wrong_magic)."
 },
 "C75": {
  "status": "partial",
  "note": "Proved for programs that do not copy or change a script in the middle of a length prefix and do not run into the double free of C76: no memory error, values, independence of copies, exact count of lost blocks. The full claim fails: push(const Script) loses a block each time."
 },
 "C76": {
  "status": "partial",
  "note": "The claim is false; proved is the exact condition (C76_destroy: undefined iff the witness is empty and has held bytes before) with clear, assignment of an empty witness and oversized push as instances, and that nothing but this destructor is a memory error without parsing."
 },
 "C77": {
  "status": "partial",
  "note": "False for FAILED objects: C77_truncated_tx, C77_cut_tx, C77_bad_key (destructor and copies undefined; the parse itself if it is the 256th entry). Proved: whatever pieces a new object has been given, unless the result is FAILED or undefined it can be destroyed (C77_destroy), any sequence of parses ending DONE can be destroyed (C77_done), copies and assignments of parsed documents hold the same document (C77_copy, C77_assign, C77_electrum_copy, C77_electrum_assign)."
 },
 "C78": {
  "status": "partial",
  "note": "The claim is false: a copy of an INCOMPLETE PSBT never becomes DONE whatever it is fed (C78_psbt_copy) although the original does (C78_psbt_original), a copy of an Electrum object does not go on like the original (C78_electrum), and a copy of an input inside its script has undefined behaviour at the next byte (C78_txin)."
 },
 "C79": {
  "status": "partial",
  "note": "Full for texts within the limits of the byte serializations: C79_toString, C79_serialize, C79_parse hold for every class whose to_stream satisfies C11; C79_tx_partial and the C79_psbt_*_partial theorems inherit the limits of C11 (fewer than 253 inputs and outputs) and C57 (only transaction and signatures are written). Refusal is exact in C79_refused; a trailing line feed is refused (C79_psbt_newline), the empty text is undefined (C79_psbt_empty_undefined)."
 },
 "C80": {
  "status": "partial",
  "note": "C80_exact gives the result of decoding any text without NUL whose length is a multiple of four; C80_safe shows memory safety for all non-empty texts and buffers. Uniqueness holds for text without padding (C80_unpadded_unique) and is false otherwise (C80_not_unique, C80_after_padding); NUL characters are accepted as A (C08_nul_accepted), the empty text is undefined (C08_empty_decode_overread)."
 },
 "C81": {
  "status": "partial",
  "note": "Exactly the bytes with an eight-byte length at the length position are undefined for scripts, inputs, outputs and witnesses (C81_script, C81_txin, C81_txout, C81_witness); for transactions it is necessary that a conforming reader refuses the bytes (readTx = bad) and that they contain ff followed by four more bytes (C81_tx), so no transaction and no truncated transaction is undefined; C81_tx_input shows undefined behaviour for any eight-byte length in an input. In pieces: all cuts for scripts, inputs and outputs; for witnesses and transactions the cuts under which C15 holds."
 },
 "C82": {
  "status": "partial",
  "note": "False: an eight-byte length (C82_length, C82_first; for the value of the first pair even if the length of its key was refused before), a spent output or previous transaction with an eight-byte script length (C82_output, C82_previous), a derivation value shorter than four bytes or a 256th derivation (C82_derivation) and a 256th signature (C82_signature) are undefined at any place of any document. Proved: these are the only causes (C82_only), documents inside the limits of the library and all truncations of them are safe (C82_document), and undefined bytes stay so whatever follows (C82_more). One piece only; previous transactions: necessary condition as in C81."
 },
 "C83": {
  "status": "partial",
  "note": "False for toBase58Check of payloads made of zero bytes only, which reads past the payload (C83_toBase58Check_overread), and for xprv() with version bytes above those of the library's networks (C83_xprv_overread). Proved for everything else: toBin, toBase58, toBase43, wif, fingerprint, txid, wtxid, sec, x and address for all inputs, toBase58Check for payloads with a byte that is not zero, xprv and xpub on the networks of the library."
 },
 "C84": {
  "status": "partial",
  "note": "False of the code in two ways, each proved exactly: an input whose witness has held bytes and is empty frees its block twice when it is destroyed or its transaction is extended or overwritten (C84_destroy, C84_overwrite, C84_clear_witness, C84_assign_input), and arrays without elements are lost by copies (C84_rest counts them). All other programs: contents and absence of memory errors (C84_values, C84_copies, C84_addInput), one owner for every block (C84_losses), without witness pushes for every allocator (C84_any_allocator). Parsing into these objects: C85."
 },
 "C85": {
  "status": "partial",
  "note": "False of the code where C81 is (undefined behaviour on eight-byte lengths) and in one further way: a count of 0 loses a block (bounded exactly per call by the counts that are 0, C85_losses, C85_rest). All programs that parse bytes where the parser itself has no undefined behaviour, and do not parse into, overwrite or destroy objects with an emptied witness (C84): no memory error, what every call tells and what is in complete variables (C85_values), separation (C85_apart), one owner for every block (C85_losses); one transaction and any pieces (C85_feed), in one go from the bytes alone (C85_bytes), ordinary transactions in pieces with nothing left (C85_pieces; pieces which end where C15 fails are covered by C85_feed only). Requests below 2^63 bytes are assumed to be granted. PSBT objects: C87. Electrum objects are not in these programs."
 },
 "C86": {
  "status": "partial",
  "note": "All sequences of calls with passphrases of at most 256 characters (C86_history, C86_after, C86_wallet, C86_callback); longer ones overflow a buffer (C86_long_overflows), so the claim about buffers is false of the code for them. Callbacks that call mnemonic_to_seed themselves are not modelled."
 },
 "C87": {
  "status": "partial",
  "note": "False of the code for an object that is used again and refused (C87_reuse: memory that has been freed is used and freed again), for FAILED objects (C77), where the parser itself is undefined (C82), and in that some arrays are never freed. Proved: all programs that copy complete objects and assign to and destroy objects on which release is defined (complete ones always are, C87_plain) run without memory error, with what every call tells and what is in complete variables (C87_values), separation (C87_apart), one owner for every block and a bound on the lost ones (C87_losses, C87_rest); one object and any calls ending DONE (C87_done), or any pieces ending INCOMPLETE or DONE (C87_feed). Requests below 2^63 bytes are assumed to be granted."
 },
 "C88": {
  "status": "partial",
  "note": "False of the code: a document with six or more inputs can leave the object with an address that has been freed, so that its destruction frees it again (C88_six_inputs, C88_spoiled); some arrays without elements are never freed. Proved: all programs that copy objects with all their metadata and scripts (Full), and do not destroy, overwrite or parse again into objects marked as spoiled, run without memory error, with what every call tells and what is in the variables (C88_values), separation (C88_apart), one owner for every block and a bound on the lost ones (C88_losses, C88_rest); segwit documents with one to five inputs never spoil (C88_five, C88_once, C88_document), nor do complete legacy transactions (C88_complete). Requests below 2^63 bytes are assumed to be granted; the parser comes to an end on the bytes (C72_hang) and is defined on them (C82)."
 },
 "C89": {
  "status": "proved",
  "note": "For every sequence of values of random32. Findings: rand() on a PC loses one bit of 32 (C89_pc_never), the ESP8266 version is biased (C89_esp8266), the fallback generator is fixed (C89_prng), a timeout on STM32 gives the phrase of zeros (C89_stm_not_ready)."
 },
 "C90": {
  "status": "proved",
  "note": "The search of random_uniform has no bound; fuel counts the draws looked at. Texts shorter than 2^31. Findings: random_uniform(0) is undefined (C90_uniform_zero), with rand() the upper half is never drawn (C90_uniform_pc)."
 },
 "C91": {
  "status": "partial",
  "note": "Proved for everything between begin() and end() and between beginHMAC() and endHMAC(), after any history (C91_begin, C91_beginHMAC, C91_endHMAC_forgets). The last sentence is false: C91_not_begun, C91_tagged_begin, C91_base_begin; further C91_uninitialised, C91_key_stays. Messages below 2^60 bytes, keys and RMD160 pieces below 2^32 bytes."
 },
 "C92": {
  "status": "partial",
  "note": "Encoding (C92_encode, C92_b58enc), exact decoding of every text with another character than '1' (C92_decode) and the round trip (C92_roundtrip) are proved in full. False for texts of ones only which are longer than the buffer (C92_decode_ones, which says exactly what happens for every number of ones). Sizes below 2^31."
 },
 "C93": {
  "status": "partial",
  "note": "Proved for every signature with non-zero numbers (C93_der), every key and version (C93_address, C93_address_segwit_p2sh, C93_wif, C93_library) and every text which does not consist of '1' only (C93_address_decode; see C92_decode_ones). False for signatures with a zero number (C93_der_zero_s, C93_der_zero_r)."
 },
 "C94": {
  "status": "partial",
  "note": "Everything but bn_format holds as stated. bn_format: C94_format for buffers that can hold prefix, suffix and a final zero (C94_format_overrun: in every other buffer memory is overwritten), except for amounts rounded to zero, without decimals and with a suffix (C94_format_no_number). Counters without bounds."
 },
 "C95": {
  "status": "proved",
  "note": "C95_sha3_pieces, C95_sha3_length, C95_hasher_pieces, C95_hasher_raw, C95_hasher_reset, C95_hasher_length; C95_after_final shows what happens to contexts used after the end. Messages of the SHA-2 hashers below 2^61 bytes; size_t without bound; words lowest byte first. Keccak is compiled out."
 },
 "C96": {
  "status": "partial",
  "note": "C96_sorts: a permutation, ends, no access outside; the order is descending, the reverse of the one wanted (C96_reversed, C96_wrong_order). The function is not called by the library (C27_sortedmulti_unsorted)."
 },
 "C97": {
  "status": "partial",
  "note": "C97_first, C97_none: exactly the first attempt in the range is returned, unchanged; C97_equidistributed, C97_equidistributed_all: each number below 2^256 has the same number of nine-word sequences, one for each value of the unused bits; C97_blind: what the theorems on the curve assume of the blinding. The loop need not end: C97_none, C97_stm_not_ready."
 },
 "C98": {
  "status": "partial",
  "note": "C98_sha256_text_partial, C98_sha512_text_partial, C98_data_text_partial: what is written, for all data and buffers, and undefined behaviour exactly for buffers that are too short. The pointer returned is not the text: C98_returned_text_empty. The rest (C98_null, C98_sha3, C98_read, C98_write, C98_format_uint64) is proved in full."
 },
 "C99": {
  "status": "partial",
  "note": "C99_sign_partial: unique keys after signing when the keys signed with are different and not yet signed for; C99_signed_unique shows that this condition is necessary, C99_written_unique that writing keeps uniqueness. Duplicates are accepted (C99_duplicates_accepted) and signing twice gives a document with duplicates (C99_sign_twice)."
 }
}