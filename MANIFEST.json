{
 "claims": [
  {
   "property": "C01",
   "status": "proved",
   "theorems": [
    "UB.C01_toHex_text",
    "UB.C01_toHex_small",
    "UB.C01_fromHex_hexText",
    "UB.C01_roundtrip"
   ],
   "note": "toHex text and untouched-on-small-buffer, fromHex in any letter case, round trip."
  },
  {
   "property": "C02",
   "status": "partial",
   "theorems": [
    "UB.C02_fromHex_exact",
    "UB.C02_fromHex_safe_partial",
    "UB.C02_fromHex_overrun"
   ],
   "note": "Exact behaviour proved for all inputs; the no-overrun part is false of the code (C02_fromHex_overrun), proved for buffers of at least half the text length."
  },
  {
   "property": "C03",
   "status": "partial",
   "theorems": [
    "UB.C03_toBin_text",
    "UB.C03_fromBin_value_partial",
    "UB.C03_roundtrip_partial",
    "UB.C03_fromBin_bad_char",
    "UB.C03_fromBin_wraps"
   ],
   "note": "Proved up to 256 bytes; false beyond (C03_fromBin_wraps, 8-bit index)."
  },
  {
   "property": "C04",
   "status": "proved",
   "theorems": [
    "UB.C04_toBase58_text",
    "UB.C04_toBase58Length_enough",
    "UB.C04_toBase58_small"
   ],
   "note": "Encoder equals the mathematical numeral for every byte string; size estimate always sufficient."
  },
  {
   "property": "C05",
   "status": "partial",
   "theorems": [
    "UB.C05_roundtrip_iff",
    "UB.C05_roundtrip_partial",
    "UB.C05_long_fails",
    "UB.C05_roundtrip_fails",
    "UB.C05_address_payload_iff"
   ],
   "note": "Exact iff-characterisation of when the round trip holds, for strings of every length (C05_roundtrip_iff); always without leading zero bytes below 2^20 bytes. False for some strings with leading zeros (C05_roundtrip_fails) and for every long one (C05_long_fails)."
  },
  {
   "property": "C06",
   "status": "partial",
   "theorems": [
    "UB.C06_accept_sound",
    "UB.C06_reject_untouched",
    "UB.C06_roundtrip_partial",
    "UB.C06_roundtrip_iff",
    "UB.C06_roundtrip_nonzero_partial",
    "UB.C06_valid_rejected"
   ],
   "note": "Soundness and untouched-on-failure for all texts; exact condition for the round trip, any length (C06_roundtrip_iff); it always holds for payloads starting with a nonzero byte, below 2^20 bytes; false otherwise (C06_valid_rejected)."
  },
  {
   "property": "C07",
   "status": "partial",
   "theorems": [
    "UB.C07_toBase43_text",
    "UB.C07_toBase43Length_enough",
    "UB.C07_roundtrip_iff",
    "UB.C07_roundtrip_partial",
    "UB.C07_long_fails",
    "UB.C07_roundtrip_fails"
   ],
   "note": "Encoder fully proved; exact condition for the round trip, any length (C07_roundtrip_iff); false with leading zeros (C07_roundtrip_fails) and for every string of 122000 bytes or more (C07_long_fails)."
  },
  {
   "property": "C08",
   "status": "partial",
   "theorems": [
    "UB.C08_toBase64_text_partial",
    "UB.C08_toBase64Length",
    "UB.C08_fromBase64Length_partial",
    "UB.C08_roundtrip_partial",
    "UB.C08_empty_overrun",
    "UB.C08_empty_decode_overread",
    "UB.C08_unpadded_overread",
    "UB.C08_nul_accepted"
   ],
   "note": "All flavours for non-empty input; empty input and unterminated unpadded text access memory out of bounds (C08_empty_overrun, C08_empty_decode_overread, C08_unpadded_overread)."
  },
  {
   "property": "C09",
   "status": "proved",
   "theorems": [
    "UB.C09_le_write_read",
    "UB.C09_le_read_write",
    "UB.C09_be_write_read",
    "UB.C09_be_read_write",
    "UB.C09_be_reverse_le",
    "UB.C09_wide_undefined"
   ],
   "note": "All widths 0..8; larger widths are undefined behaviour (C09_wide_undefined)."
  },
  {
   "property": "C10",
   "status": "proved",
   "theorems": [
    "UB.C10_writeVarInt_exact",
    "UB.C10_lenVarInt",
    "UB.C10_read_write",
    "UB.C10_prefix_free",
    "UB.C10_truncated",
    "UB.C10_readVarInt_safe"
   ],
   "note": "Exact encoding, round trip, prefix-freeness, truncation, bounds."
  },
  {
   "property": "C11",
   "status": "partial",
   "theorems": [
    "UB.C11_script",
    "UB.C11_witness",
    "UB.C11_txin",
    "UB.C11_txout",
    "UB.C11_tx_partial",
    "UB.C11_tx_pieces_partial"
   ],
   "note": "Proved for scripts, witnesses, inputs, outputs without restriction, for transactions with fewer than 253 inputs, outputs and items per stack. For larger counts the code writes only one byte of the count (Transaction.cpp:310-328) and the claim is false."
  },
  {
   "property": "C12",
   "status": "proved",
   "theorems": [
    "UB.C12_script",
    "UB.C12_witness",
    "UB.C12_txin",
    "UB.C12_txout",
    "UB.C12_tx",
    "UB.C12_tx_written"
   ],
   "note": "For transactions, stacks of fewer than 256 items (isSegwit looks at the low byte of the item count, Bitcoin.h:575)."
  },
  {
   "property": "C13",
   "status": "partial",
   "theorems": [
    "UB.C13_script_partial",
    "UB.C13_script_2G_refused",
    "UB.C13_witness"
   ],
   "note": "Scripts below 2^31 bytes (the parser refuses longer ones, C13_script_2G_refused) and witnesses with fewer than 253 items below 2^31 bytes."
  },
  {
   "property": "C14",
   "status": "partial",
   "theorems": [
    "UB.C14_tx_partial",
    "UB.C14_txin",
    "UB.C14_txout",
    "UB.C14_many_inputs_lost",
    "UB.C14_no_inputs_refused",
    "UB.C14_no_inputs_misread"
   ],
   "note": "Transactions with 1..252 inputs and fewer than 253 outputs; inputs and outputs in full. False for larger counts (C14_many_inputs_lost) and for transactions without inputs (C14_no_inputs_refused, C14_no_inputs_misread)."
  },
  {
   "property": "C15",
   "status": "partial",
   "theorems": [
    "UB.C15_script",
    "UB.C15_txin",
    "UB.C15_txout",
    "UB.C15_witness_partial",
    "UB.C15_witness_cut_prefix",
    "UB.C15_tx_partial",
    "UB.C15_tx_legacy",
    "UB.C15_tx_cut_fails"
   ],
   "note": "Any cut into non-empty pieces for scripts, inputs, outputs, legacy transactions. False for witnesses cut inside an item length (C15_witness_cut_prefix) and segwit transactions cut between the outputs and the end of the witnesses (C15_tx_cut_fails); proved for all other cuts."
  },
  {
   "property": "C16",
   "status": "partial",
   "theorems": [
    "UB.C16_script_truncated",
    "UB.C16_txin_truncated",
    "UB.C16_txout_truncated",
    "UB.C16_witness_truncated_partial",
    "UB.C16_witness_truncated_done",
    "UB.C16_tx_truncated_partial",
    "UB.C16_tx_legacy_truncated",
    "UB.C16_tx_truncated_done",
    "UB.C16_sticky",
    "UB.C16_script_failed_final",
    "UB.C16_script_wraps"
   ],
   "note": "Truncation for scripts, inputs, outputs, legacy transactions; failure is final for every class. False for witnesses (C16_witness_truncated_done), for some segwit transactions (C16_tx_truncated_done) and for a wrapping script length (C16_script_wraps); proved outside those cases."
  },
  {
   "property": "C17",
   "status": "partial",
   "theorems": [
    "UB.C17_script",
    "UB.C17_txin",
    "UB.C17_txout",
    "UB.C17_witness_partial",
    "UB.C17_tx_partial",
    "UB.C17_tx_marker_dropped"
   ],
   "note": "Scripts, inputs, outputs in full; witnesses and transactions outside the truncation defects and with counts below 253; marked transactions without witnesses are re-serialized without marker (C17_tx_marker_dropped)."
  },
  {
   "property": "C18",
   "status": "proved",
   "theorems": [
    "UB.C18_txid",
    "UB.C18_wtxid",
    "UB.C18_txid_ignores_witness",
    "UB.C18_txid_preimage_injective",
    "UB.C18_wtxid_preimage_injective",
    "UB.C18_wtxid_bip141",
    "UB.C18_wtxid_without_witness"
   ],
   "note": "For every transaction whose full encoding is shorter than 2^60 bytes (the code's byte counters are 64-bit bit counts). C18_wtxid_without_witness records that for transactions without witnesses the wtxid is not BIP 141's."
  },
  {
   "property": "C19",
   "status": "partial",
   "theorems": [
    "UB.C19_sighash_all_partial",
    "UB.C19_sighash_any",
    "UB.C19_none_wrong",
    "UB.C19_single_wrong",
    "UB.C19_index_out_of_range",
    "UB.C19_preimage_injective"
   ],
   "note": "SIGHASH_ALL (and every type that signs all inputs and outputs) proved equal to Bitcoin's algorithm; NONE, SINGLE and an index past the inputs are accepted and hashed wrongly (C19_none_wrong, C19_single_wrong, C19_index_out_of_range). C19_sighash_any says what the code does hash for every type and index."
  },
  {
   "property": "C20",
   "status": "partial",
   "theorems": [
    "UB.C20_sighash_segwit_all_partial",
    "UB.C20_sighash_segwit_any",
    "UB.C20_none_wrong",
    "UB.C20_index_undefined",
    "UB.C20_preimage_injective"
   ],
   "note": "BIP 143 proved for types that sign everything; the preimage determines its fields; NONE deviates (C20_none_wrong) and an index past the inputs is undefined behaviour (C20_index_undefined)."
  },
  {
   "property": "C21",
   "status": "proved",
   "theorems": [
    "UB.C21_addInput",
    "UB.C21_addOutput",
    "UB.C21_copy",
    "UB.C21_build"
   ],
   "note": "The returned count is a uint8_t, i.e. modulo 256."
  },
  {
   "property": "C22",
   "status": "proved",
   "theorems": [
    "UB.C22_type_exact",
    "UB.C22_constructors"
   ],
   "note": "type() is exact; constructors pkh, wpkh, sh, wsh, Script(pubkey,type), Script(script,type) give the standard scripts"
  },
  {
   "property": "C23",
   "status": "partial",
   "theorems": [
    "UB.C23_legacy_roundtrip",
    "UB.C23_p2pkh_mainnet_iff",
    "UB.C23_p2pkh_mainnet_partial",
    "UB.C23_witness_roundtrip",
    "UB.C23_regtest_wrong"
   ],
   "note": "Proved for P2SH on all networks, P2PKH on test networks, P2PKH on Mainnet iff the text has at least 33 characters (always when the hash does not start with two zero bytes), witness scripts on Mainnet/Testnet/Signet. Code disagrees for Regtest witness scripts and short Mainnet P2PKH texts (stated as theorems)."
  },
  {
   "property": "C24",
   "status": "partial",
   "theorems": [
    "UB.C24_from_address_partial",
    "UB.C24_garbage_ignored",
    "UB.C24_another_text_accepted",
    "UB.C24_version_wrong",
    "UB.C24_long_program_overruns"
   ],
   "note": "Proved for texts up to 62 characters or without a segwit prefix. Code disagrees: long programs overrun prog[32], versions 1..16 give a wrong script, trailing characters are ignored, some 38-character texts decode to an existing script (stated as theorems)."
  },
  {
   "property": "C25",
   "status": "proved",
   "theorems": [
    "UB.C25_push_data",
    "UB.C25_push_byte",
    "UB.C25_sequence",
    "UB.C25_concat"
   ],
   "note": "Allocation is assumed to succeed."
  },
  {
   "property": "C26",
   "status": "partial",
   "theorems": [
    "UB.C26_push_key",
    "UB.C26_push_sig",
    "UB.C26_push_script_partial",
    "UB.C26_long_script_wrong"
   ],
   "note": "Keys, signatures and scripts below 76 bytes; longer scripts are not one data push (C26_long_script_wrong)."
  },
  {
   "property": "C27",
   "status": "partial",
   "theorems": [
    "UB.C27_multi",
    "UB.C27_sortedmulti_unsorted",
    "UB.C27_sortedmulti_wrong"
   ],
   "note": "multi proved; sortedmulti does not sort (C27_sortedmulti_wrong)."
  },
  {
   "property": "C28",
   "status": "proved",
   "theorems": [
    "UB.C28_push",
    "UB.C28_sequence",
    "UB.C28_push_script"
   ],
   "note": "Allocation is assumed to succeed."
  },
  {
   "property": "C29",
   "status": "partial",
   "theorems": [
    "UB.C29_decode_exact_partial",
    "UB.C29_roundtrip",
    "UB.C29_encode_accepts",
    "UB.C29_limit_is_1000",
    "UB.C29_no_separator_overruns"
   ],
   "note": "Round trip (lower and upper case) and exact acceptance proved for every text; but the length limit in the code is 1000, not 90 (C29_limit_is_1000), and a text without separator makes the prefix loop run past the buffer (C29_no_separator_overruns)."
  },
  {
   "property": "C30",
   "status": "proved",
   "theorems": [
    "UB.C30_one",
    "UB.C30_two"
   ],
   "note": "One substitution at any length, two substitutions up to the code's limit of 1000 characters."
  },
  {
   "property": "C31",
   "status": "partial",
   "theorems": [
    "UB.C31_encode",
    "UB.C31_decode_exact_partial",
    "UB.C31_roundtrip",
    "UB.C31_encode_refuses",
    "UB.C31_long_data_overruns"
   ],
   "note": "Round trip and exact acceptance for every version, program, prefix and text of at most 90 characters; longer texts overrun the local buffers (C31_long_data_overruns). The specification is BIP 173; BIP 350 (Bech32m for version 1+) is not implemented by the code."
  },
  {
   "property": "C32",
   "status": "proved",
   "theorems": [
    "UB.C32_der",
    "UB.C32_der_overrun",
    "UB.C32_roundtrip",
    "UB.C32_toStream"
   ],
   "note": "der() writes the unique DER encoding for every r, s into every buffer which can hold it; reading it back (whatever follows) restores them; the stream interface writes windows of it. A shorter buffer is overrun (C32_der_overrun)."
  },
  {
   "property": "C33",
   "status": "partial",
   "theorems": [
    "UB.C33_strict_partial",
    "UB.C33_total_length_ignored",
    "UB.C33_pieces_refused"
   ],
   "note": "Success implies the consumed bytes are DER except for the SEQUENCE length byte, and no access outside buffers. The SEQUENCE length itself is not checked by the code (C33_total_length_ignored); split input is refused (C33_pieces_refused)."
  },
  {
   "property": "C34",
   "status": "proved",
   "theorems": [
    "UB.C34_bin",
    "UB.C34_fromBin",
    "UB.C34_roundtrip",
    "UB.SchnorrSig.C34_schnorr_toStream",
    "UB.SchnorrSig.C34_schnorr_roundtrip",
    "UB.SchnorrSig.C34_schnorr_rest"
   ],
   "note": "ECDSA bin/fromBin for every buffer size, Schnorr stream round trip for any split into pieces."
  },
  {
   "property": "C35",
   "status": "partial",
   "theorems": [
    "UB.C35_wif_text",
    "UB.C35_roundtrip",
    "UB.C35_accepts_only_wif",
    "UB.C35_rejected",
    "UB.C35_unknown_version_keeps_key",
    "UB.C35_large_undefined",
    "UB.C35_marker_ignored"
   ],
   "note": "Encoding, round trip and rejection of bad checksums are proved for every key in [1, n-1] and every network. C35_accepts_only_wif describes exactly what is accepted. Not as claimed: C35_unknown_version_keeps_key, C35_large_undefined, C35_marker_ignored; regtest and signet keys come back as testnet because they share the version byte."
  },
  {
   "property": "C36",
   "status": "partial",
   "theorems": [
    "UB.ECPoint.C36_toStream",
    "UB.ECPoint.C36_sec",
    "UB.ECPoint.C36_roundtrip",
    "UB.ECPoint.C36_generator",
    "UB.ECPoint.C36_pieces",
    "UB.ECPoint.C36_accepts_only_points_partial",
    "UB.ECPoint.C36_invalid_accepted",
    "UB.ECPoint.C36_isValid_ignores_y",
    "UB.ECPoint.C36_interleaved",
    "UB.ECPoint.C36_interleaved_undefined"
   ],
   "note": "Encoding, round trip in any pieces and decoding of the generator are proved. C36_accepts_only_points_partial: compressed encodings are accepted only if on the curve. Missing because false in the code: uncompressed keys off the curve are accepted (C36_invalid_accepted), isValid ignores y for them (C36_isValid_ignores_y), reuse of an object between pieces (C36_interleaved, C36_interleaved_undefined)."
  },
  {
   "property": "C37",
   "status": "partial",
   "theorems": [
    "UB.C37_versions",
    "UB.HDPriv.C37_priv_pieces",
    "UB.HDPriv.C37_priv_toStream",
    "UB.HDPriv.C37_priv_roundtrip_partial",
    "UB.HDPub.C37_pub_toStream",
    "UB.HDPub.C37_pub_roundtrip_partial",
    "UB.HDPub.C37_pub_pieces_partial",
    "UB.HDPub.C37_invalid_accepted",
    "UB.HDPub.C37_pub_overread",
    "UB.HDPriv.C37_xprv_text",
    "UB.HDPriv.C37_xprv_roundtrip_partial",
    "UB.HDPriv.C37_type_lost",
    "UB.HDPriv.C37_xprv_checksum",
    "UB.HDPriv.C37_xprv_refused",
    "UB.HDPriv.C37_length_ignored",
    "UB.HDPub.C37_xpub_text",
    "UB.HDPub.C37_xpub_roundtrip_partial",
    "UB.HDPub.C37_xpub_checksum",
    "UB.HDPub.C37_xpub_refused",
    "UB.HDPriv.C37_xpub_of_private"
   ],
   "note": "Serialization, round trip through bytes in any pieces, through text, checksum and refusal of bad texts for every key, network and script type. Not as claimed: single-signature and multisig types without version bytes of their own come back as unknown (C37_type_lost), regtest and signet share prefixes with testnet, longer payloads are accepted (C37_length_ignored), points not on the curve are accepted for some uninitialised memory (C37_invalid_accepted, C37_pub_overread)."
  },
  {
   "property": "C38",
   "status": "partial",
   "theorems": [
    "UB.C38_prv_partial",
    "UB.C38_prv_path",
    "UB.C38_prv_characters",
    "UB.C38_prv_rejected",
    "UB.C38_prv_derives",
    "UB.C38_pub_partial",
    "UB.C38_pub_path",
    "UB.C38_pub_rejected",
    "UB.C38_pub_derives",
    "UB.C38_undefined",
    "UB.C38_after_m",
    "UB.C38_empty_component",
    "UB.C38_wrong_accepted"
   ],
   "note": "Well-formed paths of any length derive exactly the children named (C38_prv_derives, C38_pub_derives), paths with other characters or indexes not below 2^31 are rejected. Not as claimed: C38_undefined (empty text), C38_after_m, C38_empty_component, C38_wrong_accepted."
  },
  {
   "property": "C39",
   "status": "partial",
   "theorems": [
    "UB.HDPriv.C39_priv_partial",
    "UB.HDPub.C39_pub_partial",
    "UB.HDPriv.C39_fingerprint",
    "UB.HDPriv.C39_depth_wraps",
    "UB.HDPriv.C39_path_partial"
   ],
   "note": "Child number, fingerprint, depth (below 255), script type and network along the path. The depth wraps at 255 (C39_depth_wraps). networkAt and typeAt describe what the code does with BIP44/49/84/48 paths."
  },
  {
   "property": "C40",
   "status": "partial",
   "theorems": [
    "UB.HDPriv.C40_priv_child_partial",
    "UB.HDPriv.C40_never_refused",
    "UB.HDPub.C40_pub_child_partial",
    "UB.HDPub.C40_hardened_not_refused",
    "UB.HDPriv.C40_agree",
    "UB.HDPriv.C40_agree_path",
    "UB.HDPriv.C40_agree_text",
    "UB.HDPriv.C40_derive_partial"
   ],
   "note": "Public and private derivation agree for every non-hardened index, index list and path text; children are those of BIP32 whenever BIP32 defines them. Not refused by the code: invalid children (C40_never_refused) and hardened children of public keys (C40_hardened_not_refused)."
  },
  {
   "property": "C41",
   "status": "partial",
   "theorems": [
    "UB.C41_wordlist",
    "UB.C41_phrase",
    "UB.C41_other_sizes",
    "UB.C41_roundtrip_partial",
    "UB.C41_15_21_rejected",
    "UB.C41_entropy_partial",
    "UB.C41_generate",
    "UB.C41_random",
    "UB.C41_other_counts"
   ],
   "note": "Phrases of 12, 18 and 24 words: generated text is the BIP39 phrase (official word list by its SHA-256), passes the check and decodes to the entropy and its checksum bits. Phrases of 15 and 21 words are generated correctly but rejected by the code, so the round trip fails for 20 and 28 bytes (C41_15_21_rejected)."
  },
  {
   "property": "C42",
   "status": "proved",
   "theorems": [
    "UB.C42_check_exact",
    "UB.C42_decode",
    "UB.C42_entropy",
    "UB.C42_checksum_ignored"
   ],
   "note": "For every text below 2^32 - 1 characters: defined, and accepted exactly for the phrases of BIP39 for 16, 24 or 32 bytes of entropy. mnemonicToEntropy does not look at the checksum (C42_checksum_ignored)."
  },
  {
   "property": "C43",
   "status": "partial",
   "theorems": [
    "UB.C43_sha256_pieces",
    "UB.C43_sha512_pieces",
    "UB.C43_rmd160_pieces_partial",
    "UB.C43_rmd160_long_piece",
    "UB.C43_hash160_pieces",
    "UB.C43_doubleSha_pieces",
    "UB.C43_taggedHash_pieces",
    "UB.C43_at_once",
    "UB.C43_taggedHash_at_once",
    "UB.C43_rmd160_at_once_partial",
    "UB.C43_sha256_bytewise"
   ],
   "note": "SHA-256, SHA-512, Hash160, DoubleSha, TaggedHash: any pieces up to 2^61 bytes in all, against FIPS 180-4 / RIPEMD paper specs. RMD160 for pieces below 4 GiB; false for longer ones (C43_rmd160_long_piece)."
  },
  {
   "property": "C44",
   "status": "partial",
   "theorems": [
    "UB.C44_hmac_sha256_pieces_partial",
    "UB.C44_hmac_sha512_pieces_partial",
    "UB.C44_hmac_sha256_partial",
    "UB.C44_hmac_sha512_partial",
    "UB.C44_hmac_sha256_long_message",
    "UB.C44_prepare_partial"
   ],
   "note": "Any key and any pieces with lengths below 2^32 (the length parameters are uint32_t); false at 4 GiB (C44_hmac_sha256_long_message)."
  },
  {
   "property": "C45",
   "status": "proved",
   "theorems": [
    "UB.C45_pbkdf2_sha512",
    "UB.C45_pbkdf2_sha256",
    "UB.C45_split",
    "UB.C45_split_independent",
    "UB.C45_zero_first"
   ],
   "note": "Any password (below 2^32 bytes), salt, iteration count >= 1, key length; any split of the iterations whose first part is not 0 (C45_zero_first shows what 0 does)."
  },
  {
   "property": "C46",
   "status": "partial",
   "theorems": [
    "UB.C46_drbg",
    "UB.C46_rfc6979_partial",
    "UB.C46_large_digest_deviates"
   ],
   "note": "The candidate stream is the RFC 6979 DRBG seeded with key and digest; equal to RFC 6979 for digests below the order, different above (C46_large_digest_deviates)."
  },
  {
   "property": "C47",
   "status": "proved",
   "theorems": [
    "UB.C47_read_be",
    "UB.C47_read_le",
    "UB.C47_roundtrip_be",
    "UB.C47_roundtrip_le",
    "UB.C47_write_be",
    "UB.C47_write_le",
    "UB.C47_normal_unique"
   ],
   "note": "Both byte orders, every 32-byte string and every number below 2^256."
  },
  {
   "property": "C48",
   "status": "proved",
   "theorems": [
    "UB.C48_add",
    "UB.C48_subtract",
    "UB.C48_addmod",
    "UB.C48_subtractmod",
    "UB.C48_mult_half",
    "UB.C48_mult_k",
    "UB.C48_multiply",
    "UB.C48_multiply_documented",
    "UB.C48_fast_mod",
    "UB.C48_mod",
    "UB.C48_reduce",
    "UB.C48_lshift",
    "UB.C48_rshift",
    "UB.C48_addi",
    "UB.C48_subi",
    "UB.C48_compare",
    "UB.C48_sqrt",
    "UB.C48_sqrt_root"
   ],
   "note": "Every modulus in [2^256-2^224, 2^256) in normal form; machine words wrap as in C. Multiplication for every product below 2^271 times the modulus (includes the documented range)."
  },
  {
   "property": "C49",
   "status": "proved",
   "theorems": [
    "UB.C49_inverse",
    "UB.C49_inverse_field",
    "UB.C49_inverse_order",
    "UB.C49_zero_out_of_bounds"
   ],
   "note": "Every prime modulus in range (secp256k1's p and n shown prime), every nine words not a multiple of it. The inverse of zero reads outside an array (C49_zero_out_of_bounds)."
  },
  {
   "property": "C50",
   "status": "partial",
   "theorems": [
    "UB.C50_add",
    "UB.C50_double",
    "UB.C50_multiply_partial",
    "UB.C50_multiply_infinity_undefined",
    "UB.C50_multiply_base",
    "UB.C50_multiply_range",
    "UB.C50_table",
    "UB.C50_group_order",
    "UB.C50_limbs_unique"
   ],
   "note": "point_add and point_double for all points; scalar_multiply for all scalars below the order and every random number; point_multiply for every point but infinity. For infinity and a nonzero scalar the code inverts zero (C50_multiply_infinity_undefined). The group order and all 512 table entries are proved."
  },
  {
   "property": "C51",
   "status": "proved",
   "theorems": [
    "UB.C51_sign_exact",
    "UB.C51_verify_exact",
    "UB.C51_bad_key_rejected",
    "UB.C51_zero_digest_rejected",
    "UB.C51_sign_verifies",
    "UB.C51_public_keys",
    "UB.C51_roundtrip",
    "UB.C51_large_key_undefined"
   ],
   "note": "Signing equals deterministic low-s ECDSA in the curve group for every draw of random numbers; verification equals SEC 1 except for digests congruent to 0; sign-then-verify follows."
  },
  {
   "property": "C52",
   "status": "proved",
   "theorems": [
    "UB.C52_canonical",
    "UB.C52_verify_accepts_high_s"
   ],
   "note": "Ranges of r and s and low s for every signature; verification does not enforce low s."
  },
  {
   "property": "C53",
   "status": "partial",
   "theorems": [
    "UB.C53_sign_exact",
    "UB.C53_sign_undefined",
    "UB.C53_sign_valid",
    "UB.C53_verify_exact",
    "UB.C53_valid_accepted",
    "UB.C53_roundtrip_partial",
    "UB.C53_negated_s_accepted",
    "UB.C53_large_s_undefined"
   ],
   "note": "Signing and verification are described exactly against the BIP340 equations with this library's nonce; made signatures verify. C53_roundtrip_partial excludes the nonce 0 case, in which signing fails an assertion (C53_sign_undefined). Not as claimed: (r, n-s) of a valid signature may also be accepted (C53_negated_s_accepted), s at or above n fails an assertion (C53_large_s_undefined)."
  },
  {
   "property": "C54",
   "status": "proved",
   "theorems": [
    "UB.C54_ecdh_exact",
    "UB.C54_symmetric"
   ],
   "note": "ECDH equals the sha256 of the compressed shared point or the raw point and is symmetric, for every pair of keys."
  },
  {
   "property": "C55",
   "status": "partial",
   "theorems": [
    "UB.C55_exact",
    "UB.C55_fee_partial",
    "UB.C55_parsed_partial",
    "UB.C55_wraps",
    "UB.C55_zero_amount",
    "UB.C55_after_failure"
   ],
   "note": "Exact value modulo 2^64 for every object with metadata for its inputs; the claim for totals below 2^64 and non-zero known amounts, and end to end after parsing. False beyond: sums wrap, a known amount 0 counts as unknown, undefined after a failed second parse (C55_wraps, C55_zero_amount, C55_after_failure)."
  },
  {
   "property": "C56",
   "status": "partial",
   "theorems": [
    "UB.C56_witness_overrides",
    "UB.C56_txid",
    "UB.C56_recorded",
    "UB.C56_rejected"
   ],
   "note": "Every previous transaction in an accepted PSBT has the outpoint's id and the output; the recorded output comes from the last pair that tells about it (C56_recorded, for all accepted PSBTs); others are refused. The claim as a whole is false: a later key 01 pair replaces an authenticated output (C56_witness_overrides)."
  },
  {
   "property": "C57",
   "status": "partial",
   "theorems": [
    "UB.C57_255_sections",
    "UB.C57_utxo_252",
    "UB.C57_parse_partial",
    "UB.C57_toStream_partial",
    "UB.C57_written_partial",
    "UB.C57_roundtrip_partial",
    "UB.C57_lost",
    "UB.C57_offset_ignored"
   ],
   "note": "Parsing: every document inside the limits is read back exactly, whatever follows it (C57_parse_partial). Serialization: the bytes are those of the document holding the transaction and the partial signatures (C57_toStream_partial), and parsing, serializing and parsing again gives that document (C57_written_partial, C57_roundtrip_partial). Missing because false in the code: everything but the transaction and the signatures is lost (C57_lost), serialization in pieces repeats delimiters (C57_offset_ignored), and parsing fails outside the limits (C57_255_sections, C57_utxo_252)."
  },
  {
   "property": "C58",
   "status": "partial",
   "theorems": [
    "UB.C58_sign_partial",
    "UB.C58_valid",
    "UB.C58_digest",
    "UB.C58_scripts_unchecked",
    "UB.C58_p2wsh_without_script",
    "UB.C58_uncompressed",
    "UB.C58_short_path_undefined",
    "UB.C58_without_output",
    "UB.C58_undefined_document"
   ],
   "note": "Proved for PSBTs that hold a well-formed document, compressed root keys, and paths not shorter than the hardened part of the first path under the root (C58_sign_partial); outside that sign reads behind a path (C58_short_path_undefined, C58_undefined_document). The digest is that of consensus if the scripts fit the output (C58_digest); they are not checked (C58_scripts_unchecked). Assumes that no 10000 nonces in sequence are refused for validity of the signatures (C58_valid)."
  },
  {
   "property": "C59",
   "status": "proved",
   "theorems": [
    "UB.C59_checksum",
    "UB.C59_rejects_partial",
    "UB.C59_nul_accepted",
    "UB.C59_detects",
    "UB.C59_string",
    "UB.C59_string_rejects",
    "UB.C59_string_detects"
   ],
   "note": "BIP 380 checksum exactly for every text over the alphabet, empty string for other texts, one character (and up to four consecutive ones) always detected. The buffer overload treats NUL as a character of the alphabet (C59_nul_accepted), which strings cannot contain."
  },
  {
   "property": "C60",
   "status": "partial",
   "theorems": [
    "UB.C60_available",
    "UB.C60_read",
    "UB.C60_reader",
    "UB.C60_hex_text",
    "UB.C60_hex_equals_raw",
    "UB.C60_empty_hex_read",
    "UB.C60_bad_hex_accepted",
    "UB.C60_bad_locktime_accepted",
    "UB.C60_written"
   ],
   "note": "First half proved for every program using available() and read(); empty hex text is read out of bounds (C60_empty_hex_read). Second half is false (C60_bad_hex_accepted, C60_bad_locktime_accepted)."
  },
  {
   "property": "C61",
   "status": "partial",
   "theorems": [
    "UB.Scalar.C61_add",
    "UB.Scalar.C61_mul",
    "UB.Scalar.C61_sub",
    "UB.Scalar.C61_div",
    "UB.Scalar.C61_div_zero",
    "UB.Scalar.C61_neg_partial",
    "UB.Scalar.C61_neg_zero",
    "UB.Scalar.C61_addi",
    "UB.Scalar.C61_addi_wraps",
    "UB.Scalar.C61_subi",
    "UB.Scalar.C61_subi_wraps",
    "UB.Scalar.C61_word_constructor_undefined",
    "UB.Scalar.C61_lt"
   ],
   "note": "Addition, subtraction, multiplication, division and the comparison are the field operations modulo n. C61_neg_partial: negation of non-zero scalars; the negation of zero is n, not reduced (C61_neg_zero). Division by zero is out of bounds (C61_div_zero); adding or subtracting a word wraps above the order (C61_addi_wraps, C61_subi_wraps)."
  },
  {
   "property": "C62",
   "status": "partial",
   "theorems": [
    "UB.ECPoint.C62_order",
    "UB.ECPoint.C62_irreflexive",
    "UB.ECPoint.C62_transitive",
    "UB.ECPoint.C62_total",
    "UB.ECPoint.C62_equal",
    "UB.ECPoint.C62_equal_and_less"
   ],
   "note": "operator< is a strict total order on points (irreflexive, transitive, total) but is the reverse of the lexicographic order of the serialized keys (C62_order), and an equal point with the other compression flag can compare as less (C62_equal_and_less)."
  },
  {
   "property": "C63",
   "status": "proved",
   "theorems": [
    "UB.C63_recover",
    "UB.C63_refused",
    "UB.C63_recovered",
    "UB.C63_undefined"
   ],
   "note": "Recovered key is the signer's, for every signature produced (C63_recover). For signatures and recovery numbers of any origin: refused exactly as SEC 1 4.1.6 demands (C63_refused), otherwise the key is r^-1(sR - eG) and the signature is valid for it (C63_recovered), except that s R = e G is undefined (C63_undefined)."
  },
  {
   "property": "C64",
   "status": "partial",
   "theorems": [
    "UB.ECPoint.C64_add",
    "UB.ECPoint.C64_neg",
    "UB.ECPoint.C64_sub",
    "UB.ECPoint.C64_mul",
    "UB.ECPoint.C64_mul_large_undefined",
    "UB.ECPoint.C64_mul_infinity_undefined",
    "UB.ECPoint.C64_distributes"
   ],
   "note": "Addition, negation, subtraction and multiplication by a scalar below n are the group operation. Missing because false in the code: multiplying by n or more fails an assertion (C64_mul_large_undefined), multiplying infinity inverts zero (C64_mul_infinity_undefined)."
  },
  {
   "property": "C65",
   "status": "partial",
   "theorems": [
    "UB.ECScalar.C65_scalar_pieces",
    "UB.ECScalar.C65_scalar_rest",
    "UB.ECScalar.C65_scalar_toStream",
    "UB.ECScalar.C65_order_accepted",
    "UB.PrivKey.C65_key_pieces",
    "UB.PrivKey.C65_key_rest",
    "UB.PrivKey.C65_constructor",
    "UB.PrivKey.C65_constructor_undefined",
    "UB.PrivKey.C65_setSecret"
   ],
   "note": "Any pieces, value modulo n, matching public key, zero refused, rest of the stream untouched. Not as claimed: the bytes of n are accepted as key zero (C65_order_accepted); constructors fail an assertion for values not below n (C65_constructor_undefined)."
  },
  {
   "property": "C66",
   "status": "proved",
   "theorems": [
    "UB.C66_sign_exact",
    "UB.C66_verify_exact",
    "UB.C66_roundtrip"
   ],
   "note": "Exact signing, exact verification for digests not divisible by n (others are refused, see C51_zero_digest_rejected), round trip."
  },
  {
   "property": "C67",
   "status": "partial",
   "theorems": [
    "UB.HDPriv.C67_exact",
    "UB.HDPriv.C67_master_partial"
   ],
   "note": "C67_exact describes every seed. Missing because false in the code: a zero secret is accepted and one not below the order fails an assertion."
  },
  {
   "property": "C68",
   "status": "partial",
   "theorems": [
    "UB.HDPriv.C68_seed",
    "UB.HDPriv.C68_mnemonic_partial",
    "UB.HDPriv.C68_exact"
   ],
   "note": "Seed is exact (C68_seed) for texts shorter than 2^32 bytes; the key is the master key whenever BIP32 defines one, and C68_exact says what happens otherwise (an assertion, or a zero secret) for about one of 2^127 seeds. Progress callbacks: C86_callback."
  },
  {
   "property": "C69",
   "status": "partial",
   "theorems": [
    "UB.HDPub.C69_rejects_partial",
    "UB.HDPub.C69_other_key_partial",
    "UB.HDPub.C69_correct_rejected"
   ],
   "note": "The claim is false: C69_rejects_partial and C69_other_key_partial give what the code does, C69_correct_rejected a correct signature that is rejected."
  },
  {
   "property": "C70",
   "status": "partial",
   "theorems": [
    "UB.ECPoint.C70_legacy",
    "UB.ECPoint.C70_nested",
    "UB.ECPoint.C70_segwit_partial",
    "UB.ECPoint.C70_segwit_short",
    "UB.ECPoint.C70_scripts",
    "UB.HDPriv.C70_agree",
    "UB.HDPub.C70_kind"
   ],
   "note": "Texts are exact for every key and network and agree with the addresses of the scripts (C70_scripts); the extended private key agrees with its public key. Not as claimed: segwitAddress returns 76 instead of the length and needs 76 bytes (C70_segwit_partial, C70_segwit_short); multisig-typed extended keys give single-key addresses (C70_kind)."
  },
  {
   "property": "C71",
   "status": "partial",
   "theorems": [
    "UB.C71_legacy_exact",
    "UB.C71_segwit_exact",
    "UB.C71_p2pkh",
    "UB.C71_p2sh_partial",
    "UB.C71_segwit",
    "UB.C71_segwit_key",
    "UB.C71_others",
    "UB.C71_order",
    "UB.C71_index_undefined",
    "UB.C71_type_not_recorded",
    "UB.C71_p2sh_p2pkh"
   ],
   "note": "Hash type ALL. C71_legacy_exact and C71_segwit_exact give the transaction exactly; C71_p2pkh, C71_p2sh_partial, C71_segwit, C71_segwit_key show that the input satisfies Bitcoin's rules (interpreter in Spec/Interp); C71_others and C71_order: other inputs. False of the code: other hash types (C71_type_not_recorded), P2SH of a key hash script (C71_p2sh_p2pkh), P2SH scripts over 75 bytes (C26), index past the inputs (C71_index_undefined)."
  },
  {
   "property": "C72",
   "status": "partial",
   "theorems": [
    "UB.C72_parse_segwit",
    "UB.C72_six_inputs",
    "UB.C72_hang",
    "UB.C72_parse_legacy",
    "UB.C72_fee_exact",
    "UB.C72_fee",
    "UB.C72_fee_negative",
    "UB.C72_fee_undefined",
    "UB.C72_sign",
    "UB.C72_document",
    "UB.C72_document_fee",
    "UB.C72_sign_undefined",
    "UB.C72_hang_any",
    "UB.C72_any_keys",
    "UB.C72_legacy_bad_key",
    "UB.C72_legacy_mark_undefined",
    "UB.C72_wrong_magic",
    "UB.C72_no_metadata",
    "UB.C72_mark_undefined",
    "UB.C72_segwit_pieces",
    "UB.C72_segwit_part",
    "UB.C72_legacy_pieces",
    "UB.C72_legacy_part",
    "UB.C72_cut_fails",
    "UB.C72_p2wsh",
    "UB.C72_nested_p2wsh"
   ],
   "note": "C72_parse_segwit (1 to 5 inputs), C72_parse_legacy; in any pieces C72_segwit_pieces (no piece ending inside the length of the script of the last output), C72_legacy_pieces, with C72_segwit_part, C72_legacy_part for documents not yet complete; C72_wrong_magic: other magic bytes are refused; C72_no_metadata: transactions with an input without metadata are refused; C72_legacy_bad_key: without segwit inputs, keys that are no keys are refused; C72_fee, C72_sign, and C72_document, C72_document_fee from document to result. False of the code: six and more inputs (C72_six_inputs), a piece ending in the length of a long last script (C72_cut_fails), unknown version bytes (C72_hang, C72_hang_any: no termination), keys that are no points are accepted (C72_any_keys), keys that start with the byte 4 are undefined (C72_mark_undefined, C72_legacy_mark_undefined), fee without amounts or of an unbalanced transaction (C72_fee_undefined, C72_fee_negative), sign without metadata (C72_sign_undefined), inputs of P2WSH wallets are counted as signed but given the witness for a key hash (C72_p2wsh, C72_nested_p2wsh)."
  },
  {
   "property": "C73",
   "status": "partial",
   "theorems": [
    "UB.C73_private",
    "UB.C73_public",
    "UB.C73_own",
    "UB.C73_no_entries",
    "UB.C73_public_own",
    "UB.C73_agree",
    "UB.C73_script_unchecked",
    "UB.C73_number_undefined",
    "UB.C73_document",
    "UB.C73_hardened"
   ],
   "note": "Exact answer for private and public keys (C73_private, C73_public), agreement on paths without hardened indexes, BIP32 keys on public paths. The claim itself is refuted: scripts and fingerprints are not compared (C73_script_unchecked, C73_document), hardened paths give another answer with the public key (C73_hardened), output numbers past the end are undefined (C73_number_undefined)."
  },
  {
   "property": "C74",
   "status": "partial",
   "theorems": [
    "UB.C74_between_lost",
    "UB.C74_between_fails",
    "UB.C74_between_first_fails",
    "UB.C74_key_lost",
    "UB.C74_mark_lost",
    "UB.C74_wrong_magic",
    "UB.C74_in_transaction",
    "UB.C74_short_first",
    "UB.C74_fresh_first",
    "UB.C74_pair_lost",
    "UB.C74_input_field_lost",
    "UB.C74_output_field_lost",
    "UB.C74_last_byte"
   ],
   "note": "False as stated: cuts at or inside later pairs drop the pair (C74_pair_lost, C74_input_field_lost, C74_output_field_lost), a cut inside a key drops the key and reads its value as the next pair (C74_key_lost), a cut before the end mark of a map joins maps (C74_mark_lost), a cut between a key and its value fails (C74_between_fails, C74_between_first_fails, for a preceding pair with a value that is not empty) or, after an empty value in the same map, drops the pair (C74_between_lost), short first pieces fail (C74_short_first, C74_fresh_first), a last byte alone never completes (C74_last_byte). Proved for any number of cuts inside the transaction (C74_in_transaction). Several cuts in different pairs are not covered. Data without the prefix are refused in any pieces (C74_wrong_magic)."
  },
  {
   "property": "C75",
   "status": "partial",
   "theorems": [
    "UB.C75_values",
    "UB.C75_copies",
    "UB.C75_losses",
    "UB.C75_rest",
    "UB.C75_any_allocator"
   ],
   "note": "Proved for programs that do not copy or change a script in the middle of a length prefix and do not run into the double free of C76: no memory error, values, independence of copies, exact count of lost blocks. The full claim fails: push(const Script) loses a block each time."
  },
  {
   "property": "C76",
   "status": "partial",
   "theorems": [
    "UB.C76_any_allocator",
    "UB.C76_destroy",
    "UB.C76_clear",
    "UB.C76_clear_any",
    "UB.C76_assign_empty",
    "UB.C76_oversized"
   ],
   "note": "The claim is false; proved is the exact condition (C76_destroy: undefined iff the witness is empty and has held bytes before) with clear, assignment of an empty witness and oversized push as instances, and that nothing but this destructor is a memory error without parsing."
  },
  {
   "property": "C77",
   "status": "partial",
   "theorems": [
    "UB.C77_destroy",
    "UB.C77_done",
    "UB.C77_done_once",
    "UB.C77_truncated_tx",
    "UB.C77_cut_tx",
    "UB.C77_copy",
    "UB.C77_assign",
    "UB.C77_electrum_copy",
    "UB.C77_electrum_assign",
    "UB.C77_electrum_unread",
    "UB.C77_bad_key",
    "UB.C77_bad_prefix"
   ],
   "note": "False for FAILED objects: C77_truncated_tx, C77_cut_tx, C77_bad_key (destructor and copies undefined; the parse itself if it is the 256th entry). Proved: whatever pieces a new object has been given, unless the result is FAILED or undefined it can be destroyed (C77_destroy), any sequence of parses ending DONE can be destroyed (C77_done), copies and assignments of parsed documents hold the same document (C77_copy, C77_assign, C77_electrum_copy, C77_electrum_assign)."
  },
  {
   "property": "C78",
   "status": "partial",
   "theorems": [
    "UB.C78_electrum",
    "UB.C78_psbt_copy",
    "UB.C78_psbt_original",
    "UB.C78_txin"
   ],
   "note": "The claim is false: a copy of an INCOMPLETE PSBT never becomes DONE whatever it is fed (C78_psbt_copy) although the original does (C78_psbt_original), a copy of an Electrum object does not go on like the original (C78_electrum), and a copy of an input inside its script has undefined behaviour at the next byte (C78_txin)."
  },
  {
   "property": "C79",
   "status": "partial",
   "theorems": [
    "UB.C79_toBase64String",
    "UB.C79_hexToBase64",
    "UB.C79_base64ToHex",
    "UB.C79_convert_roundtrip",
    "UB.C79_toString",
    "UB.C79_serialize",
    "UB.C79_serialize_undefined",
    "UB.C79_parse",
    "UB.C79_tx_partial",
    "UB.C79_psbt_written_partial",
    "UB.C79_psbt_parse_partial",
    "UB.C79_psbt_roundtrip_partial",
    "UB.C79_failed_stays",
    "UB.C79_psbt_bad_text",
    "UB.C79_refused",
    "UB.C79_psbt_empty_undefined",
    "UB.C79_psbt_newline"
   ],
   "note": "Full for texts within the limits of the byte serializations: C79_toString, C79_serialize, C79_parse hold for every class whose to_stream satisfies C11; C79_tx_partial and the C79_psbt_*_partial theorems inherit the limits of C11 (fewer than 253 inputs and outputs) and C57 (only transaction and signatures are written). Refusal is exact in C79_refused; a trailing line feed is refused (C79_psbt_newline), the empty text is undefined (C79_psbt_empty_undefined)."
  },
  {
   "property": "C80",
   "status": "partial",
   "theorems": [
    "UB.C80_exact",
    "UB.C80_unpadded_unique",
    "UB.C80_after_padding",
    "UB.C80_not_unique",
    "UB.C80_safe"
   ],
   "note": "C80_exact gives the result of decoding any text without NUL whose length is a multiple of four; C80_safe shows memory safety for all non-empty texts and buffers. Uniqueness holds for text without padding (C80_unpadded_unique) and is false otherwise (C80_not_unique, C80_after_padding); NUL characters are accepted as A (C08_nul_accepted), the empty text is undefined (C08_empty_decode_overread)."
  },
  {
   "property": "C81",
   "status": "partial",
   "theorems": [
    "UB.C81_script",
    "UB.C81_txin",
    "UB.C81_txout",
    "UB.C81_witness",
    "UB.C81_tx",
    "UB.C81_tx_input",
    "UB.C81_script_pieces",
    "UB.C81_txin_pieces",
    "UB.C81_txout_pieces",
    "UB.C81_witness_pieces_partial",
    "UB.C81_tx_pieces_partial"
   ],
   "note": "Exactly the bytes with an eight-byte length at the length position are undefined for scripts, inputs, outputs and witnesses (C81_script, C81_txin, C81_txout, C81_witness); for transactions it is necessary that a conforming reader refuses the bytes (readTx = bad) and that they contain ff followed by four more bytes (C81_tx), so no transaction and no truncated transaction is undefined; C81_tx_input shows undefined behaviour for any eight-byte length in an input. In pieces: all cuts for scripts, inputs and outputs; for witnesses and transactions the cuts under which C15 holds."
  },
  {
   "property": "C82",
   "status": "partial",
   "theorems": [
    "UB.C82_only",
    "UB.C82_more",
    "UB.C82_document",
    "UB.C82_length",
    "UB.C82_derivation",
    "UB.C82_signature",
    "UB.C82_output",
    "UB.C82_previous",
    "UB.C82_first"
   ],
   "note": "False: an eight-byte length (C82_length, C82_first; for the value of the first pair even if the length of its key was refused before), a spent output or previous transaction with an eight-byte script length (C82_output, C82_previous), a derivation value shorter than four bytes or a 256th derivation (C82_derivation) and a 256th signature (C82_signature) are undefined at any place of any document. Proved: these are the only causes (C82_only), documents inside the limits of the library and all truncations of them are safe (C82_document), and undefined bytes stay so whatever follows (C82_more). One piece only; previous transactions: necessary condition as in C81."
  },
  {
   "property": "C83",
   "status": "partial",
   "theorems": [
    "UB.C83_toBin",
    "UB.C83_toBase58",
    "UB.C83_toBase43",
    "UB.C83_toBase58Check_partial",
    "UB.C83_toBase58Check_overread",
    "UB.C83_wif",
    "UB.HDPriv.C83_xprv_partial",
    "UB.HDPriv.C83_xprv_overread",
    "UB.HDPub.C83_xpub_partial",
    "UB.HDPriv.C83_fingerprint",
    "UB.Tx.C83_txid",
    "UB.ECPoint.C83_sec",
    "UB.ECPoint.C83_x",
    "UB.Script.C83_address"
   ],
   "note": "False for toBase58Check of payloads made of zero bytes only, which reads past the payload (C83_toBase58Check_overread), and for xprv() with version bytes above those of the library's networks (C83_xprv_overread). Proved for everything else: toBin, toBase58, toBase43, wif, fingerprint, txid, wtxid, sec, x and address for all inputs, toBase58Check for payloads with a byte that is not zero, xprv and xpub on the networks of the library."
  },
  {
   "property": "C84",
   "status": "partial",
   "theorems": [
    "UB.C84_values",
    "UB.C84_copies",
    "UB.C84_addInput",
    "UB.C84_losses",
    "UB.C84_rest",
    "UB.C84_destroy",
    "UB.C84_overwrite",
    "UB.C84_clear_witness",
    "UB.C84_assign_input",
    "UB.C84_any_allocator"
   ],
   "note": "False of the code in two ways, each proved exactly: an input whose witness has held bytes and is empty frees its block twice when it is destroyed or its transaction is extended or overwritten (C84_destroy, C84_overwrite, C84_clear_witness, C84_assign_input), and arrays without elements are lost by copies (C84_rest counts them). All other programs: contents and absence of memory errors (C84_values, C84_copies, C84_addInput), one owner for every block (C84_losses), without witness pushes for every allocator (C84_any_allocator). Parsing into these objects: C85."
  },
  {
   "property": "C85",
   "status": "partial",
   "theorems": [
    "UB.C85_values",
    "UB.C85_apart",
    "UB.C85_losses",
    "UB.C85_rest",
    "UB.C85_feed",
    "UB.C85_bytes",
    "UB.C85_pieces"
   ],
   "note": "False of the code where C81 is (undefined behaviour on eight-byte lengths) and in one further way: a count of 0 loses a block (bounded exactly per call by the counts that are 0, C85_losses, C85_rest). All programs that parse bytes where the parser itself has no undefined behaviour, and do not parse into, overwrite or destroy objects with an emptied witness (C84): no memory error, what every call tells and what is in complete variables (C85_values), separation (C85_apart), one owner for every block (C85_losses); one transaction and any pieces (C85_feed), in one go from the bytes alone (C85_bytes), ordinary transactions in pieces with nothing left (C85_pieces; pieces which end where C15 fails are covered by C85_feed only). Requests below 2^63 bytes are assumed to be granted. PSBT objects: C87. Electrum objects are not in these programs."
  },
  {
   "property": "C86",
   "status": "partial",
   "theorems": [
    "UB.C86_history",
    "UB.C86_after",
    "UB.C86_wallet",
    "UB.C86_long_overflows",
    "UB.C86_stays",
    "UB.C86_callback"
   ],
   "note": "All sequences of calls with passphrases of at most 256 characters (C86_history, C86_after, C86_wallet, C86_callback); longer ones overflow a buffer (C86_long_overflows), so the claim about buffers is false of the code for them. Callbacks that call mnemonic_to_seed themselves are not modelled."
  },
  {
   "property": "C87",
   "status": "partial",
   "theorems": [
    "UB.C87_values",
    "UB.C87_apart",
    "UB.C87_losses",
    "UB.C87_rest",
    "UB.C87_plain",
    "UB.C87_done",
    "UB.C87_feed",
    "UB.C87_reuse"
   ],
   "note": "False of the code for an object that is used again and refused (C87_reuse: memory that has been freed is used and freed again), for FAILED objects (C77), where the parser itself is undefined (C82), and in that some arrays are never freed. Proved: all programs that copy complete objects and assign to and destroy objects on which release is defined (complete ones always are, C87_plain) run without memory error, with what every call tells and what is in complete variables (C87_values), separation (C87_apart), one owner for every block and a bound on the lost ones (C87_losses, C87_rest); one object and any calls ending DONE (C87_done), or any pieces ending INCOMPLETE or DONE (C87_feed). Requests below 2^63 bytes are assumed to be granted."
  },
  {
   "property": "C88",
   "status": "partial",
   "theorems": [
    "UB.C88_values",
    "UB.C88_apart",
    "UB.C88_losses",
    "UB.C88_rest",
    "UB.C88_spoiled",
    "UB.C88_five",
    "UB.C88_complete",
    "UB.C88_once",
    "UB.C88_document",
    "UB.C88_six_inputs"
   ],
   "note": "False of the code: a document with six or more inputs can leave the object with an address that has been freed, so that its destruction frees it again (C88_six_inputs, C88_spoiled); some arrays without elements are never freed. Proved: all programs that copy objects with all their metadata and scripts (Full), and do not destroy, overwrite or parse again into objects marked as spoiled, run without memory error, with what every call tells and what is in the variables (C88_values), separation (C88_apart), one owner for every block and a bound on the lost ones (C88_losses, C88_rest); segwit documents with one to five inputs never spoil (C88_five, C88_once, C88_document), nor do complete legacy transactions (C88_complete). Requests below 2^63 bytes are assumed to be granted; the parser comes to an end on the bytes (C72_hang) and is defined on them (C82)."
  },
  {
   "property": "C89",
   "status": "proved",
   "theorems": [
    "UB.C89_buffer",
    "UB.C89_phrase",
    "UB.C89_other_counts",
    "UB.C89_distinct",
    "UB.C89_every",
    "UB.C89_pc_never",
    "UB.C89_esp8266",
    "UB.C89_prng",
    "UB.C89_stm_not_ready"
   ],
   "note": "For every sequence of values of random32. Findings: rand() on a PC loses one bit of 32 (C89_pc_never), the ESP8266 version is biased (C89_esp8266), the fallback generator is fixed (C89_prng), a timeout on STM32 gives the phrase of zeros (C89_stm_not_ready)."
  },
  {
   "property": "C90",
   "status": "proved",
   "theorems": [
    "UB.C90_uniform",
    "UB.C90_uniform_pending",
    "UB.C90_uniform_zero",
    "UB.C90_uniform_pc",
    "UB.C90_permute",
    "UB.C90_permute_fair"
   ],
   "note": "The search of random_uniform has no bound; fuel counts the draws looked at. Texts shorter than 2^31. Findings: random_uniform(0) is undefined (C90_uniform_zero), with rand() the upper half is never drawn (C90_uniform_pc)."
  },
  {
   "property": "C91",
   "status": "partial",
   "theorems": [
    "UB.C91_begin",
    "UB.C91_beginHMAC",
    "UB.C91_endHMAC_forgets",
    "UB.C91_fresh",
    "UB.C91_tagged_begin",
    "UB.C91_base_begin",
    "UB.C91_uninitialised",
    "UB.C91_key_stays",
    "UB.C91_not_begun"
   ],
   "note": "Proved for everything between begin() and end() and between beginHMAC() and endHMAC(), after any history (C91_begin, C91_beginHMAC, C91_endHMAC_forgets). The last sentence is false: C91_not_begun, C91_tagged_begin, C91_base_begin; further C91_uninitialised, C91_key_stays. Messages below 2^60 bytes, keys and RMD160 pieces below 2^32 bytes."
  },
  {
   "property": "C92",
   "status": "partial",
   "theorems": [
    "UB.TrezorBase58.C92_b58enc",
    "UB.TrezorBase58.C92_encode",
    "UB.TrezorBase58.C92_encode_long",
    "UB.TrezorBase58.C92_decode",
    "UB.TrezorBase58.C92_decode_ones",
    "UB.TrezorBase58.C92_text_unique",
    "UB.TrezorBase58.C92_roundtrip"
   ],
   "note": "Encoding (C92_encode, C92_b58enc), exact decoding of every text with another character than '1' (C92_decode) and the round trip (C92_roundtrip) are proved in full. False for texts of ones only which are longer than the buffer (C92_decode_ones, which says exactly what happens for every number of ones). Sizes below 2^31."
  },
  {
   "property": "C93",
   "status": "partial",
   "theorems": [
    "UB.TrezorKeys.C93_der",
    "UB.TrezorKeys.C93_der_zero_s",
    "UB.TrezorKeys.C93_der_zero_r",
    "UB.TrezorKeys.C93_address",
    "UB.TrezorKeys.C93_address_segwit_p2sh",
    "UB.TrezorKeys.C93_wif",
    "UB.TrezorKeys.C93_address_decode",
    "UB.TrezorKeys.C93_library"
   ],
   "note": "Proved for every signature with non-zero numbers (C93_der), every key and version (C93_address, C93_address_segwit_p2sh, C93_wif, C93_library) and every text which does not consist of '1' only (C93_address_decode; see C92_decode_ones). False for signatures with a zero number (C93_der_zero_s, C93_der_zero_r)."
  },
  {
   "property": "C94",
   "status": "partial",
   "theorems": [
    "UB.BN.C94_testbit",
    "UB.BN.C94_setbit",
    "UB.BN.C94_clearbit",
    "UB.BN.C94_xor",
    "UB.BN.C94_bitcount",
    "UB.BN.C94_divmod58",
    "UB.BN.C94_divmod1000",
    "UB.BN.C94_digitcount",
    "UB.BN.C94_format",
    "UB.BN.C94_format_no_number",
    "UB.BN.C94_format_overrun"
   ],
   "note": "Everything but bn_format holds as stated. bn_format: C94_format for buffers that can hold prefix, suffix and a final zero (C94_format_overrun: in every other buffer memory is overwritten), except for amounts rounded to zero, without decimals and with a suffix (C94_format_no_number). Counters without bounds."
  },
  {
   "property": "C95",
   "status": "proved",
   "theorems": [
    "UB.C95_sha3_pieces",
    "UB.C95_sha3_length",
    "UB.C95_after_final",
    "UB.C95_hasher_pieces",
    "UB.C95_hasher_raw",
    "UB.C95_hasher_reset",
    "UB.C95_hasher_length"
   ],
   "note": "C95_sha3_pieces, C95_sha3_length, C95_hasher_pieces, C95_hasher_raw, C95_hasher_reset, C95_hasher_length; C95_after_final shows what happens to contexts used after the end. Messages of the SHA-2 hashers below 2^61 bytes; size_t without bound; words lowest byte first. Keccak is compiled out."
  },
  {
   "property": "C96",
   "status": "partial",
   "theorems": [
    "UB.C96_sorts",
    "UB.C96_reversed",
    "UB.C96_wrong_order"
   ],
   "note": "C96_sorts: a permutation, ends, no access outside; the order is descending, the reverse of the one wanted (C96_reversed, C96_wrong_order). The function is not called by the library (C27_sortedmulti_unsorted)."
  },
  {
   "property": "C97",
   "status": "partial",
   "theorems": [
    "UB.BN.C97_first",
    "UB.BN.C97_none",
    "UB.C97_equidistributed",
    "UB.C97_equidistributed_all",
    "UB.C97_blind",
    "UB.C97_stm_not_ready"
   ],
   "note": "C97_first, C97_none: exactly the first attempt in the range is returned, unchanged; C97_equidistributed, C97_equidistributed_all: each number below 2^256 has the same number of nine-word sequences, one for each value of the unused bits; C97_blind: what the theorems on the curve assume of the blinding. The loop need not end: C97_none, C97_stm_not_ready."
  },
  {
   "property": "C98",
   "status": "partial",
   "theorems": [
    "UB.C98_sha256_text_partial",
    "UB.C98_sha512_text_partial",
    "UB.C98_null",
    "UB.C98_data_text_partial",
    "UB.C98_returned_text_empty",
    "UB.C98_sha3",
    "UB.BN.C98_read",
    "UB.BN.C98_write",
    "UB.BN.C98_format_uint64"
   ],
   "note": "C98_sha256_text_partial, C98_sha512_text_partial, C98_data_text_partial: what is written, for all data and buffers, and undefined behaviour exactly for buffers that are too short. The pointer returned is not the text: C98_returned_text_empty. The rest (C98_null, C98_sha3, C98_read, C98_write, C98_format_uint64) is proved in full."
  },
  {
   "property": "C99",
   "status": "partial",
   "theorems": [
    "UB.C99_signed_unique",
    "UB.C99_written_unique",
    "UB.C99_sign_partial",
    "UB.C99_sign_twice",
    "UB.C99_duplicates_accepted"
   ],
   "note": "C99_sign_partial: unique keys after signing when the keys signed with are different and not yet signed for; C99_signed_unique shows that this condition is necessary, C99_written_unique that writing keeps uniqueness. Duplicates are accepted (C99_duplicates_accepted) and signing twice gives a document with duplicates (C99_sign_twice)."
  },
  {
   "property": "C100",
   "status": "partial",
   "theorems": [
    "UB.Errno.C100_tx_partial",
    "UB.Errno.C100_psbt_partial",
    "UB.C100_flag_silent",
    "UB.C100_codes_ambiguous"
   ],
   "note": "C100_tx_partial and C100_psbt_partial: in any pieces, unchanged as long as nothing failed, and the code of the part that failed otherwise. Two kinds of failure set nothing (C100_flag_silent, C100_codes_ambiguous) and codes are ambiguous (C100_codes_ambiguous)."
  },
  {
   "property": "C101",
   "status": "partial",
   "theorems": [
    "UB.C101_terms",
    "UB.C101_others",
    "UB.C101_signature",
    "UB.C101_commute",
    "UB.C101_any_order",
    "UB.C101_series",
    "UB.C101_series_others",
    "UB.C101_again",
    "UB.C101_txid",
    "UB.C101_txid_series",
    "UB.C101_electrum",
    "UB.C101_psbt",
    "UB.C101_index_wraps",
    "UB.C101_witness_kept"
   ],
   "note": "Everything as stated for numbers below 256 (C101_terms, C101_others, C101_signature, C101_commute, C101_any_order, C101_series, C101_again, C101_txid, C101_txid_series, C101_electrum, C101_psbt). False for numbers from 256 on, which sign another input (C101_index_wraps). C101_electrum says which inputs are left alone for up to 256 inputs."
  },
  {
   "property": "C102",
   "status": "partial",
   "theorems": [
    "UB.C102_bytes",
    "UB.C102_text_exact",
    "UB.C102_text",
    "UB.C102_parent",
    "UB.C102_out_script",
    "UB.C102_out_address",
    "UB.C102_out_legacy",
    "UB.C102_out_witness",
    "UB.C102_short_text",
    "UB.C102_short_text_script",
    "UB.C102_tail_ignored",
    "UB.C102_prefix_lost",
    "UB.C102_blank_shifts",
    "UB.C102_bad_address",
    "UB.C102_regtest_anyone",
    "UB.C102_long_anyone"
   ],
   "note": "Inputs: exact result for every text of 64 or more characters (C102_text_exact), correct for every hex text of an id in any case (C102_text), for txid() of any transaction (C102_parent), for bytes and scripts (C102_bytes). Outputs: scripts (C102_out_script), legacy addresses but mainnet key hash ones (C102_out_legacy; those are C23), witness addresses but Regtest (C102_out_witness). That text which is no id or address is refused is false; the deviations are proved."
  },
  {
   "property": "C103",
   "status": "partial",
   "theorems": [
    "UB.C103_p2wsh",
    "UB.C103_p2sh_p2wsh",
    "UB.C103_p2sh",
    "UB.C103_bare",
    "UB.C103_p2wpkh",
    "UB.C103_p2pkh",
    "UB.C103_signer",
    "UB.C103_cosigners",
    "UB.C103_cosigners_legacy",
    "UB.C103_single",
    "UB.C103_passed_on"
   ],
   "note": "C103_cosigners (segwit and nested), C103_cosigners_legacy (p2sh), C103_single (one key: p2wpkh, nested, p2pkh) from the bytes of the document to the interpreter; C103_bare for bare scripts and C103_p2wsh, C103_p2sh_p2wsh, C103_p2sh, C103_p2wpkh, C103_p2pkh for any collection of signatures of the library; C103_signer for one signer. Hypotheses of C58: documents inside the limits, compressed keys, paths not shorter than the hardened part of the first one, no 10000 refused nonces. False: passing a PSBT on from signer to signer (C103_passed_on)."
  },
  {
   "property": "C104",
   "status": "partial",
   "theorems": [
    "UB.C104_segwit",
    "UB.C104_nested",
    "UB.C104_legacy",
    "UB.C104_regtest",
    "UB.C104_wallet"
   ],
   "note": "Proved for nested segwit on all networks, native segwit on all networks but Regtest, legacy on the test networks, and on the main network exactly for texts of at least 33 characters. For the rest the claim is proved false. That no nonce is found in 10000 attempts is excluded by a hypothesis."
  },
  {
   "property": "C105",
   "status": "partial",
   "theorems": [
    "UB.HDPriv.C105_watch"
   ],
   "note": "The public keys always agree; the addresses agree exactly if the type is P2SH-P2WPKH, or the type is not P2PKH and the network is not Regtest (`HDPriv.C105_watch`, an equivalence). In the other cases the claim is proved false."
  },
  {
   "property": "C106",
   "status": "partial",
   "theorems": [
    "UB.C106_any",
    "UB.C106_seed_partial",
    "UB.C106_phrase_partial",
    "UB.C106_regtest"
   ],
   "note": "Proved for BIP 44 and 49 on all networks and BIP 84 on all networks but Regtest, where it is proved false. The keys along the path are assumed to exist in the sense of BIP 32 (probability of the opposite about 2^-127); C40 and C67 say what the code does otherwise."
  },
  {
   "property": "C107",
   "status": "partial",
   "theorems": [
    "UB.C107_seed_partial",
    "UB.C107_phrase_partial",
    "UB.C107_spends",
    "UB.C107_again"
   ],
   "note": "Missing as in C58: documents in which a path under the master key is shorter than the hardened part of the first one (sign is undefined there, C58_short_path_undefined) and more than 255 signatures for an input. Seeds without a master key are not covered (C67_exact says what happens then)."
  },
  {
   "property": "C108",
   "status": "partial",
   "theorems": [
    "UB.C108_native",
    "UB.C108_nested",
    "UB.C108_legacy_partial",
    "UB.C108_legacy_long",
    "UB.C108_regtest"
   ],
   "note": "C108_native on all networks but Regtest, C108_nested on all networks, C108_legacy_partial for scripts of at most 75 bytes. For the rest the claim is proved false (C108_legacy_long, C108_regtest). That no nonce is found in 10000 attempts is excluded by a hypothesis."
  },
  {
   "property": "C109",
   "status": "partial",
   "theorems": [
    "UB.Payment.C109_payment_partial",
    "UB.Payment.C109_id",
    "UB.Payment.C109_id_changes"
   ],
   "note": "C109_payment_partial and C109_id for 1 to 252 inputs and at most 252 outputs; with more inputs the claim is false (C14_many_inputs_lost; the index of signInput is a byte, C101_index_wraps). That no nonce is found in 10000 attempts is excluded by a hypothesis, shown to hold for complete payments in Props/PaymentVector. C109_id_changes: the id changes if not all outputs are native segwit."
  },
  {
   "property": "C110",
   "status": "proved",
   "theorems": [
    "UB.HDPriv.C110_watch"
   ],
   "note": "For all networks and types. Excludes derived keys with secret 0 (invalid by BIP 32) and, as C104, signing transactions for which none of 10000 nonce candidates is usable."
  },
  {
   "property": "C111",
   "status": "proved",
   "theorems": [
    "UB.PrivKey.C111_keys",
    "UB.HDPriv.C111_seed",
    "UB.HDPriv.C111_derive",
    "UB.HDPub.C111_derive",
    "UB.PrivKey.C111_sign",
    "UB.Tx.C111_signInput",
    "UB.Payment.C111_pay",
    "UB.PSBT.C111_sign",
    "UB.PSBT.C111_isMine",
    "UB.ElectrumTx.C111_sign",
    "UB.C111_ecdh_verify",
    "UB.PrivKey.C111_schnorr",
    "UB.ECPoint.C111_mul",
    "UB.ECPoint.C111_schnorrVerify",
    "UB.PrivKey.C111_read",
    "UB.HDPriv.C111_read"
   ],
   "note": "ecdh, verify, schnorr_verify and multiplication of a point are for valid public keys, with any signature; everything else is without conditions on the values. Draws are in the range which generate_k_random ensures (C97)."
  }
 ]
}